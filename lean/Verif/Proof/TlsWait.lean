import Verif.Proof.TlsReceive
/-!
# A TLS client that waits for the rest of a record
-/
namespace Verif.Tls
open Verif Hl
open _root_.Verif.Spec (World worldBus TxState RxState Queue Chip Mem)

variable {x : Crypto}

/-- A call of `process` with no interrupt that matters, up to the point where the client looks for a record. -/
theorem process_quiet (dbg : Bool) (fuel : Nat) (rng : Rng x) (secs : UInt32) {w : World} {base p : Nat} (c : Client x)
    (hcon : c.state.receives = true) (hrx : RxAt w.chip c.sn.idx base p) (htx : TxState w.chip c.sn.idx)
    (hir : Spec.Mqtt.quiet (w.tick.chip.mem (4 * c.sn.idx + 1) 2) = true) :
    ∃ w1, Sock w w1 c.sn.idx base p ∧ w1.chip.rxRd c.sn.idx = (base + p) % 65536 ∧
      process dbg fuel worldBus rng secs (w, c) = receiveRecords dbg fuel worldBus secs (w1, c) := by
  have hs0 : Sock w w c.sn.idx base p := ⟨hrx.rx, htx, rfl, List.prefix_rfl, id, Nat.le_refl _, fun e => ⟨e, rfl⟩, List.suffix_rfl, rfl⟩
  have hs1 := hs0.tick
  have hrd1 : w.tick.chip.rxRd c.sn.idx = (base + p) % 65536 := by rw [tick_rxRd]; exact hrx.rd
  obtain ⟨h1, h2, h3⟩ := ir_quiet _ hir
  have tail : ∀ w2 : World, onState dbg fuel worldBus secs (w2, c) = receiveRecords dbg fuel worldBus secs (w2, c) := by
    intro w2
    unfold onState
    rw [X.bind_ok (getC_run (w2, c))]
    have hrr : (match c.state with
      | .reset => orFatal worldBus secs (tlsTcpConnect dbg fuel worldBus secs) >>= fun after => pure (.callAfter after)
      | .sendDiscon => orFatal worldBus secs (onBus (tcpDisconnect dbg worldBus c.sn)) >>= fun _ =>
          modC (Client.setStateWithTimeout .waitDiscon secs) >>= fun _ => pure (.callAfter timeoutSecs)
      | _ => receiveRecords dbg fuel worldBus secs : X TErr (World × Client x) TEvent) = receiveRecords dbg fuel worldBus secs := by
      cases hst : c.state <;> rw [hst] at hcon <;> first | rfl | exact absurd hcon (by decide)
    exact congrFun hrr (w2, c)
  unfold process
  rw [X.bind_ok (getC_run (w, c)), X.bind_ok (X.attempt_ok (onBus_ok' (Mqtt.run_snIr c.sn w) c))]
  dsimp only
  by_cases hany : (⟨w.tick.chip.mem (4 * c.sn.idx + 1) 2⟩ : SocketInterrupt).anyRaised = true
  · rw [if_pos hany]
    unfold onInterrupts
    obtain ⟨w2, e2, hs2, hrd2⟩ := hs1.setIr (⟨w.tick.chip.mem (4 * c.sn.idx + 1) 2⟩ : SocketInterrupt).raw hrd1
    rw [X.bind_ok (getC_run (w.tick, c)), X.bind_ok (orFatal_ok (onBus_ok' e2 c)), if_neg (by rw [h1]; decide)]
    unfold onInterrupt
    rw [X.bind_ok (getC_run (w2, c)), if_neg (by rw [h2]; decide), if_neg (by rw [h3]; decide), if_neg (by rcases hst : c.state <;> rw [hst] at hcon <;> first | exact absurd hcon (by decide) | simp)]
    exact ⟨w2, hs2, hrd2, tail w2⟩
  · rw [if_neg hany]
    exact ⟨w.tick, hs1, hrd1, tail w.tick⟩

/-- A header whose record has not arrived completely is left. -/
theorem recvHeader_waits (dbg : Bool) {w0 w : World} {base p m : Nat} (c : Client x) (hb : Bytes) (ct : ContentType)
    (hs : Sock w0 w c.sn.idx base p) (hrd : w.chip.rxRd c.sn.idx = (base + p) % 65536)
    (hbytes : ((w0.chip.received c.sn.idx).drop p).take 5 = hb)
    (hct : ContentType.tryFrom (hb.getD 0 0) = .ok ct) (hm : (be16 (hb.getD 3 0) (hb.getD 4 0)).toNat = m)
    (hlim : m ≤ c.recordSizeLimit.toNat) (hlen : p + 5 ≤ (w0.chip.received c.sn.idx).length)
    (hinc : (w0.chip.received c.sn.idx).length < p + 5 + m) (hm5 : m + 5 < 65536) (hst : Still c.sn.idx w0) :
    (∃ w', dbg = true ∧ recvHeader dbg worldBus (w, c) = (.error (.stop .panic), (w', c))) ∨
    ∃ w', recvHeader dbg worldBus (w, c) = (.ok none, (w', c)) ∧ Sock w0 w' c.sn.idx base p ∧
      w'.chip.rxRd c.sn.idx = (base + p) % 65536 := by
  unfold recvHeader
  rw [X.bind_ok (getC_run (w, c))]
  rcases tcpReader_sock dbg hs hrd (by omega) with ⟨w1, hdbg, e1⟩ | ⟨w1, r, e1, hs1, hrd1, hsn, hhead, hptr, L, hL, hL1, hL2, hsl, hrem⟩
  · exact .inl ⟨w1, hdbg, X.bind_error (onHl_panic e1 c)⟩
  right
  rw [(hs1.still hst).2] at hL2
  have hmin : min16 r.remain (lenU16 5) = 5 := by
    apply u16_ext
    rw [min16_toNat, hrem, lenU16_toNat]
    show _ = 5
    omega
  have hp0 : r.ptr.toNat = (base + p) % 65536 := by rw [hptr]; exact hhead
  have e2 : tcpReaderReadExact worldBus r 5 w1 = (.ok (hb, { r with ptr := r.ptr + 5 }), w1.tick) := by
    unfold tcpReaderReadExact
    simp only [hmin]
    rw [if_neg (by decide), hsn, M.bind_ok (hs1.read r.ptr p 5 hp0 (Nat.le_refl _) (by omega)), hbytes]
    rfl
  have hlenEq : RecordHeader.length (toHeader hb) = be16 (hb.getD 3 0) (hb.getD 4 0) := rfl
  have hdes : RecordHeader.deser (toHeader hb) = .ok (toHeader hb) := by
    unfold RecordHeader.deser
    have : (toHeader hb)[0] = hb.getD 0 0 := rfl
    rw [this, hct]
  refine ⟨w1.tick, ?_, hs1.tick, by rw [tick_rxRd]; exact hrd1⟩
  have hlt : L < m + 5 := by omega
  have hm' := u16_lt (be16 (hb.getD 3 0) (hb.getD 4 0))
  have hcl := u16_lt c.recordSizeLimit
  rw [X.bind_ok (onHl_ok' e1 c), X.bind_ok (onHl_ok' e2 c)]
  dsimp only
  rw [hdes, show (X.ofExcept (Except.ok (toHeader hb)) : X AlertDescription (World × Client x) _) = pure (toHeader hb) from rfl, pure_bind,
    if_neg (by rw [GT.gt, UInt16.lt_iff_toNat_lt, hlenEq, hm]; omega),
    if_pos (by
      rw [show ({ r with ptr := r.ptr + 5 } : Ptrs).streamLen = r.streamLen from rfl, hsl, hlenEq, hm]
      omega)]
  rfl

end Verif.Tls
