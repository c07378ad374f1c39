import Verif.Proof.TlsSteps
/-!
# Sending the client hello
-/
namespace Verif.Tls
open Verif Hl
open _root_.Verif.Spec (World worldBus TxState RxState Queue Chip Mem HsMsg EnvStep)

variable {x : Crypto}

theorem envStep_ir_mask (c : Chip) (e : EnvStep) (k : Nat) (m : UInt8) (hc : Spec.Mqtt.quiet (c.mem (4 * k + 1) 2 &&& m) = true)
    (he : ∀ bits, e = .raise k bits → Spec.Mqtt.quiet bits = true) : Spec.Mqtt.quiet ((c.envStep e).mem (4 * k + 1) 2 &&& m) = true := by
  cases e with
  | arrive j bs =>
    unfold Chip.envStep
    dsimp only
    split
    · dsimp only
      rw [ringWrite_other _ _ _ _ _ _ _ (by omega), setReg_ir _ _ _ _ _ (by omega), setReg_ir _ _ _ _ _ (by omega)]
      exact hc
    · exact hc
  | status j s =>
    unfold Chip.envStep Chip.setStatus Mem.store
    dsimp only
    rw [if_neg (by omega)]
    exact hc
  | free j n =>
    unfold Chip.envStep
    rw [setReg_ir _ _ _ _ _ (by omega)]
    exact hc
  | raise j bits =>
    unfold Chip.envStep Mem.store
    dsimp only
    split
    · rename_i h
      have : j = k := by omega
      subst this
      have e : (c.mem (4 * j + 1) 2 ||| bits) &&& m = (c.mem (4 * j + 1) 2 &&& m) ||| (bits &&& m) := by
        apply UInt8.toNat_inj.mp
        simp only [UInt8.toNat_and, UInt8.toNat_or]
        exact Nat.and_or_distrib_right ..
      rw [e]
      exact quiet_or hc (quiet_and m (he bits rfl))
    · exact hc

/-- The steps to come raise no CON, DISCON or TIMEOUT interrupt of socket `k`. -/
def CalmAhead (k : Nat) (w : World) : Prop := ∀ es ∈ w.sched, ∀ bits, EnvStep.raise k bits ∈ es → Spec.Mqtt.quiet bits = true

theorem CalmAhead.tick {k : Nat} {w : World} (h : CalmAhead k w) (m : UInt8) (hm : Spec.Mqtt.quiet (w.chip.mem (4 * k + 1) 2 &&& m) = true) :
    CalmAhead k w.tick ∧ Spec.Mqtt.quiet (w.tick.chip.mem (4 * k + 1) 2 &&& m) = true := by
  unfold World.tick
  split
  · exact ⟨h, hm⟩
  · rename_i es rest hs
    have hl := h
    unfold CalmAhead at hl
    rw [hs] at hl
    refine ⟨fun e he => hl e (List.mem_cons_of_mem _ he), ?_⟩
    dsimp only
    have key : ∀ (es : List EnvStep) (c : Chip), (∀ bits, EnvStep.raise k bits ∈ es → Spec.Mqtt.quiet bits = true) →
        Spec.Mqtt.quiet (c.mem (4 * k + 1) 2 &&& m) = true → Spec.Mqtt.quiet ((es.foldl Chip.envStep c).mem (4 * k + 1) 2 &&& m) = true := by
      intro es
      induction es with
      | nil => intro c _ hc; exact hc
      | cons e es ih =>
        intro c he hc
        exact ih _ (fun bits hb => he bits (List.mem_cons_of_mem _ hb))
          (envStep_ir_mask c e k m hc (fun bits hb => he bits (by rw [hb]; exact List.mem_cons_self)))
    exact key es w.chip (hl es List.mem_cons_self) hm

/-- Clearing the interrupts that were read makes peace. -/
theorem peace_after_clear (sn : Sn) {w : World} (h : CalmAhead sn.idx w) :
    Peace sn.idx (worldBus.setSnIr sn (w.chip.mem (4 * sn.idx + 1) 2) w).2 := by
  rw [run_setSnIr]
  obtain ⟨h1, h2⟩ := h.tick (~~~ w.chip.mem (4 * sn.idx + 1) 2) (by
    have : ∀ y : UInt8, y &&& ~~~ y = 0 := forall_u8 (p := fun y => y &&& ~~~ y = 0) (by decide +kernel)
    rw [this]; decide)
  refine ⟨?_, h1⟩
  unfold Mem.store
  dsimp only
  rw [if_pos ⟨rfl, rfl⟩]
  exact h2

theorem vec8_length (b : Bytes) : (Spec.Tls.vec8 b).length = 1 + b.length := by unfold Spec.Tls.vec8; rw [List.length_append]; rfl
theorem offer_length (o : Spec.Tls.Offer) (hr : o.random.length = 32) (hk : o.publicKey.length = 65) :
    o.record.length = 234 + o.host.length + o.identity.length := by
  have hb : (Spec.Tls.binder o.psk o.truncated).length = 32 := hmac_length _ _
  generalize hB : Spec.Tls.binder o.psk o.truncated = B at hb
  have h1 : (o.extensions B).flatten.length = 182 + o.host.length + o.identity.length := by
    unfold Spec.Tls.Offer.extensions
    simp only [List.flatten_cons, List.flatten_nil, List.length_append, extension_length, vec16_length, vec8_length, u16_length, List.length_cons,
      List.length_nil, hb, hk, List.length_flatMap, List.map_cons, List.map_nil, List.sum_cons, List.sum_nil]
    omega
  have h2 : (o.body B).length = 43 + (o.extensions B).flatten.length := by
    unfold Spec.Tls.Offer.body
    simp only [List.length_append, vec16_length, vec8_length, u16_length, List.length_cons, List.length_nil, hr]
    omega
  unfold Spec.Tls.Offer.record Spec.Tls.Offer.hello
  rw [hB]
  unfold Spec.Tls.Offer.message
  simp only [List.length_append, vec16_length, u16_length, List.length_cons, List.length_nil, h2, h1]
  omega

theorem modC_run {ε σ : Type} (f : Client x → Client x) (s : σ × Client x) :
    (modC f : X ε (σ × Client x) Unit) s = (.ok (), (s.1, f s.2)) := rfl

/-- The client after `makeHello`. -/
def Client.offering (c : Client x) (rng : Rng x) : Client x :=
  { c with
    rx := { c.rx.reset with buf := writeAt c.rx.buf 0 (c.helloArgs rng).offer.record }
    ks := { c.ks with
      clientSecret := some rng.secret, transcript := (c.helloArgs rng).offer.hello, secret := Spec.Tls.earlySecret c.psk
      hkdf := Spec.Tls.earlySecret c.psk } }

/-- The client before the message is made. -/
def Client.primed (c : Client x) (rng : Rng x) : Client x := { c with rx := c.rx.reset, ks := { c.ks with clientSecret := some rng.secret } }

theorem makeHello_run (hx : x.Standard) (dbg : Bool) (rng : Rng x) (hr : rng.Ok) (w : World) (c : Client x) (hn : c.rx.n < 65536)
    (hh : c.hostname.length < 256) (ht : c.ks.transcript = []) (hf : 234 + c.hostname.length + c.identity.length ≤ c.rx.n) :
    makeHello dbg rng (w, c) = (.ok (c.helloArgs rng).offer.record, (w, c.offering rng)) := by
  have e0 : makeHello dbg rng (w, c) = (ofCipher (clientHelloSer dbg (c.primed rng).rx.n ((c.primed rng).helloArgs rng) (c.primed rng).ks) >>= fun o =>
      modC (fun c => { c with rx := { c.rx with buf := writeAt c.rx.buf 0 o.1 }, ks := o.2 }) >>= fun _ => pure o.1 :
      X AlertDescription (World × Client x) Bytes) (w, c.primed rng) := rfl
  rw [e0, (C57_client_hello hx dbg (c.primed rng).rx.n ((c.primed rng).helloArgs rng) (c.primed rng).ks hn hr.random hr.key hh ht).trans (if_pos hf)]
  rfl

theorem sendHello_split (sn : Sn) (buf : Bytes) {w w' : World} (h : emitSend sn (piecesProg [buf]) w = (.ok (), w')) :
    ∃ r r' w1 w2, socketWriter worldBus sn w = (.ok r, w1) ∧ writerWriteAll worldBus r buf w1 = (.ok r', w2) ∧
      writerSend worldBus r' w2 = (.ok (), w') := by
  rw [← sendPieces_eq] at h
  unfold sendPieces at h
  rcases h1 : socketWriter worldBus sn w with ⟨e | r, w1⟩
  · rw [M.bind_error h1] at h; simp at h
  rw [M.bind_ok h1] at h
  unfold writePieces at h
  rw [bind_assoc] at h
  rcases h2 : writerWriteAll worldBus r buf w1 with ⟨e | r', w2⟩
  · rw [M.bind_error h2] at h; simp at h
  rw [M.bind_ok h2] at h
  exact ⟨r, r', w1, w2, rfl, h2, h⟩

theorem sendClientHello_run (hx : x.Standard) (dbg : Bool) (rng : Rng x) (hr : rng.Ok) (secs : UInt32) {w : World} {c : Client x}
    (htx : TxState w.chip c.sn.idx) (hn : c.rx.n < 65536) (hh : c.hostname.length < 256) (ht : c.ks.transcript = []) (hs : c.ks.writeSeq = 0)
    (hf : 234 + c.hostname.length + c.identity.length ≤ c.rx.n)
    (hfree : (c.helloArgs rng).offer.record.length ≤ w.chip.txFsr c.sn.idx) :
    ∃ w' c', sendClientHello dbg worldBus rng secs (w, c) = (.ok (), (w', c')) ∧ TxState w'.chip c.sn.idx ∧ TxOnly c.sn.idx w w' ∧
      w'.chip.sent = w.chip.sent ++ [⟨c.sn.idx, w.chip.destIp c.sn.idx, w.chip.destPort c.sn.idx, (c.helloArgs rng).offer.record⟩] ∧
      w.chip.txFsr c.sn.idx ≤ w'.chip.txFsr c.sn.idx + (c.helloArgs rng).offer.record.length ∧
      c' = Client.setStateWithTimeout .waitServerHello secs
        { c.offering rng with ks := ({ (c.offering rng).ks with writeSeq := 1 } : KeySchedule x).initializeEarlySecret } := by
  have ho := txOnly_emitSend c.sn (piecesProg [(c.helloArgs rng).offer.record]) w
  have hfl : [(c.helloArgs rng).offer.record].flatten = (c.helloArgs rng).offer.record := by simp
  rcases emitSend_run' htx (piecesProg_emits [(c.helloArgs rng).offer.record] 0) with ⟨w', e1, e2, -, e4⟩ | ⟨w', -, -, e⟩
  · rw [e1] at ho
    refine ⟨w', _, ?_, e2, ho, by rw [e4, hfl], by have := emitSend_room htx e1 e4; rw [hfl] at this; exact this, rfl⟩
    obtain ⟨r, r', w1, w2, s1, s2, s3⟩ := sendHello_split c.sn _ e1
    unfold sendClientHello
    rw [X.bind_ok (makeHello_run hx dbg rng hr w c hn hh ht hf), X.bind_ok (getC_run _)]
    have hsn : (c.offering rng).sn = c.sn := rfl
    dsimp only
    rw [hsn, X.bind_ok (onBus_ok' s1 _), X.bind_ok (onBus_ok' s2 _), X.bind_ok (onBus_ok' s3 _), X.bind_ok (getC_run _)]
    have hi : (c.offering rng).ks.incrementWriteSeq = .ok { (c.offering rng).ks with writeSeq := 1 } := by
      unfold KeySchedule.incrementWriteSeq
      have : (c.offering rng).ks.writeSeq = 0 := hs
      rw [if_pos (by rw [this]; decide), this]
      rfl
    dsimp only
    rw [hi]
    rfl
  · rw [hfl] at e; omega

theorem Part.offering (c : Client x) (rng : Rng x) (hr : rng.Ok) (hn : c.rx.n ≤ 32768)
    (hf : 234 + c.hostname.length + c.identity.length ≤ c.rx.n) : Part (c.offering rng).rx [] ∧ (c.offering rng).rx.n = c.rx.n := by
  have hl : (c.helloArgs rng).offer.record.length = 234 + c.hostname.length + c.identity.length := offer_length _ hr.random hr.key
  have hb : (c.offering rng).rx.buf.length = c.rx.buf.length := by
    show (writeAt c.rx.buf 0 _).length = _
    rw [writeAt_length (by rw [hl]; show 0 + _ ≤ c.rx.n; omega)]
  refine ⟨⟨?_, rfl, rfl⟩, hb⟩
  rw [hb]
  have h0 : 234 ≤ c.rx.buf.length := by show 234 ≤ c.rx.n; omega
  have h1 : c.rx.buf.length ≤ 32768 := hn
  refine ⟨by rw [hb]; exact h1, ?_, ?_, ?_, ?_, Nat.zero_le _, rfl⟩
  · rw [hb]; show c.rx.buf.length - 1 + 1 = _; omega
  · rw [hb]; show 0 < _; omega
  · exact (Nat.zero_mod _).symm
  · exact (Nat.zero_mod _).symm

/-- The call in which the client learns that it is connected. -/
theorem process_offer (hx : x.Standard) (dbg : Bool) (fuel : Nat) (rng : Rng x) (hr : rng.Ok) (secs : UInt32) {w : World} {c : Client x} {p : Nat}
    (hrx : RxState w.chip c.sn.idx p) (htx : TxState w.chip c.sn.idx) (hsz : c.rx.n ≤ 16384) (hh : c.hostname.length < 256)
    (hks : c.ks.transcript = [] ∧ c.ks.writeSeq = 0) (hf : 234 + c.hostname.length + c.identity.length ≤ c.rx.n)
    (hfree : 234 + c.hostname.length + c.identity.length ≤ w.chip.txFsr c.sn.idx)
    (hir : Spec.Mqtt.con (w.tick.chip.mem (4 * c.sn.idx + 1) 2) = true ∧ Spec.Mqtt.discon (w.tick.chip.mem (4 * c.sn.idx + 1) 2) = false ∧
      Spec.Mqtt.timeout (w.tick.chip.mem (4 * c.sn.idx + 1) 2) = false)
    (hcalm : CalmAhead c.sn.idx w) (hstill : Still c.sn.idx w) (hfew : (w.chip.received c.sn.idx).length < p + 5) :
    ∃ w' c', process dbg fuel worldBus rng secs (w, c) = (.ok (.callAfter 10), (w', c')) ∧ Kept w c w' c' ∧ Peace c.sn.idx w' ∧
      Offered w' c' p c.psk rng.secret (c.helloArgs rng).offer.hello ∧
      w'.chip.sent.map (·.payload) = w.chip.sent.map (·.payload) ++ [(c.helloArgs rng).offer.record] ∧ c'.timeout = some secs ∧
      w.chip.txFsr c.sn.idx ≤ w'.chip.txFsr c.sn.idx + (234 + c.hostname.length + c.identity.length) := by
  obtain ⟨base, hat⟩ := hrx.at
  obtain ⟨h2, h1, h3⟩ := Thm.ir_bits (w.tick.chip.mem (4 * c.sn.idx + 1) 2)
  rw [hir.1] at h1
  rw [hir.2.1] at h2
  rw [hir.2.2] at h3
  have hs0 : Sock w w c.sn.idx base p := ⟨hat.rx, htx, rfl, List.prefix_rfl, id, Nat.le_refl _, fun e => ⟨e, rfl⟩, List.suffix_rfl, rfl⟩
  have hs1 := hs0.tick
  have hrd1 : w.tick.chip.rxRd c.sn.idx = (base + p) % 65536 := by rw [tick_rxRd]; exact hat.rd
  obtain ⟨w2, e2, hs2, hrd2⟩ := hs1.setIr (w.tick.chip.mem (4 * c.sn.idx + 1) 2) hrd1
  have hp2 : Peace c.sn.idx w2 := by
    have := peace_after_clear c.sn (w := w.tick) (hcalm.tick 0 (by rw [UInt8.and_zero]; decide)).1
    rw [e2] at this
    exact this
  have hst2 : Still c.sn.idx w2 ∧ w2.chip.received c.sn.idx = w.chip.received c.sn.idx := by
    have := run_setSnIr c.sn (w.tick.chip.mem (4 * c.sn.idx + 1) 2) w.tick
    rw [e2] at this
    injection this with _ this
    rw [this]
    exact ⟨hstill.tick.1.tick.1, hstill.tick.1.tick.2.trans hstill.tick.2⟩
  obtain ⟨w3, c3, e3, g1, g2, g3, groom, hc3⟩ := sendClientHello_run hx dbg rng hr secs (w := w2) (c := c) hs2.tx (by omega) hh hks.1 hks.2 hf
    (by rw [offer_length _ hr.random hr.key]; exact Nat.le_trans hfree hs2.free)
  have hat3 : RxAt w3.chip c.sn.idx base p := g2.rx _ _ ⟨hs2.rx, hrd2⟩
  have hst3 := g2.still hst2.1
  have hsn : c3.sn = c.sn := by rw [hc3]; rfl
  have hstate : c3.state = .waitServerHello := by rw [hc3]; rfl
  obtain ⟨hpart, hpn⟩ := Part.offering c rng hr (by omega) hf
  have hrx3 : c3.rx = (c.offering rng).rx := by rw [hc3]; rfl
  have e4 : process dbg fuel worldBus rng secs (w, c) = (.ok (.callAfter 10), (w3.tick, c3)) := by
    unfold process
    rw [X.bind_ok (getC_run (w, c)), X.bind_ok (X.attempt_ok (onBus_ok' (Mqtt.run_snIr c.sn w) c))]
    dsimp only
    rw [if_pos (by
      have := forall_u8 (p := fun y => (⟨y⟩ : SocketInterrupt).conRaised = true → (⟨y⟩ : SocketInterrupt).anyRaised = true) (by decide +kernel)
      exact this _ h1)]
    unfold onInterrupts
    rw [X.bind_ok (getC_run (w.tick, c)), X.bind_ok (orFatal_ok (onBus_ok' e2 c)), if_pos h1, X.bind_ok (orFatal_ok e3)]
    unfold onInterrupt
    rw [X.bind_ok (getC_run (w3, c3)), if_neg (by rw [h2]; decide), if_neg (by rw [h3]; decide), if_neg (by dsimp only; rw [hstate]; simp)]
    unfold onState
    rw [X.bind_ok (getC_run (w3, c3))]
    have hrr : (match c3.state with
      | .reset => orFatal worldBus secs (tlsTcpConnect dbg fuel worldBus secs) >>= fun after => pure (.callAfter after)
      | .sendDiscon => orFatal worldBus secs (onBus (tcpDisconnect dbg worldBus c3.sn)) >>= fun _ =>
          modC (Client.setStateWithTimeout .waitDiscon secs) >>= fun _ => pure (.callAfter timeoutSecs)
      | _ => receiveRecords dbg fuel worldBus secs : X TErr (World × Client x) TEvent) = receiveRecords dbg fuel worldBus secs := by rw [hstate]
    refine (congrFun hrr (w3, c3)).trans ?_
    unfold receiveRecords
    rw [X.bind_ok (getC_run (w3, c3))]
    dsimp only
    rw [if_neg (by rw [hstate]; simp), X.bind_ok (orFatal_ok (onBus_ok' (run_snRxRsr c3.sn w3) c3)), if_neg]
    · exact afterRecv_fresh dbg secs _ _ (by rw [hstate]; simp) (by rw [hc3]; rfl)
    · rw [GE.ge, UInt16.le_iff_toNat_le, hsn, hat3.tick.rsr_toNat, (g2.still hst2.1).1.tick.2, hst3.2, hst2.2]
      show ¬ 5 ≤ _
      omega
  refine ⟨w3.tick, c3, e4, ⟨hsn, by rw [hrx3]; exact hpn, ?_, ?_⟩, (g2.peace hp2).tick, ?_, ?_, by rw [hc3]; rfl, ?_⟩
  · exact (hs2.pre.trans g2.pre).trans (tick_received_prefix _ _)
  · exact fun _ => (g2.peace hp2).tick
  · refine ⟨⟨by rw [hstate]; rfl, by rw [hrx3, hpn]; omega, by rw [hrx3]; exact hpart, ?_, ?_⟩, hstate, by rw [hc3]; rfl, by rw [hc3]; rfl, ?_⟩
    · rw [hsn]; exact hat3.tick.state
    · rw [hsn]; exact g1.tick
    · rw [hc3]
      exact (early_run hx { (c.offering rng).ks with writeSeq := 1 } c.psk rfl).1
  · rw [tick_sent, g3, hs2.sent, List.map_append]
    rfl
  · rw [offer_length _ hr.random hr.key] at groom
    exact Nat.le_trans (Nat.le_trans hs2.free groom) (Nat.add_le_add_right (tick_txFsr_ge g1) _)

end Verif.Tls
