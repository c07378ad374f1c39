import Verif.Thm.TlsReceive
/-!
# A record for which the receive buffer has no room
-/
namespace Verif.Tls
open Verif Hl
open _root_.Verif.Spec (World worldBus TxState RxState Queue Chip Mem)
open _root_.Verif.Spec.Gcm (gctr inc32 J0 counter)

variable {key : Block} {iv : Vector UInt8 12} {aad : Vector UInt8 5} {x : Crypto}

/-- An append of more than fits is refused, unless it is of exactly one byte too many. -/
theorem QRel.extend_full {b : Buffer} {q : Queue} (dbg : Bool) (h : QRel b q) (src : Bytes) (hs : q.cap < q.size + src.length)
    (hs1 : q.size + src.length ≠ q.cap + 1) : b.extendFromSlice dbg src = .error (.err .internalError) := by
  have hlen := h.len
  have h1 := h.cap; have h3 := h.size
  unfold Buffer.extendFromSlice Buffer.remain Buffer.capacity Buffer.n
  rw [hlen, if_pos (by split <;> omega)]

theorem decryptLoop_overflow (dbg : Bool) (sn : Sn) (w0 : World) (base p cap : Nat) (app : Bytes) : ∀ (fuel n : Nat) (w : World) (q : Nat)
    (rd remain : UInt16) (g : Aes128Gcm) (C pend : Bytes) (rx : Buffer),
    Sock w0 w sn.idx base p → rd.toNat = (base + q) % 65536 → p ≤ q → remain.toNat = n → 0 < n → n ≤ 16 * fuel →
    q + n ≤ (w0.chip.received sn.idx).length → GInv key iv aad C C.length g → C.length % 16 = 0 → C.length + n < 65536 →
    QRel rx ⟨cap, app, pend⟩ → cap + 1 < app.length + pend.length + n → (cap + 1 - (app.length + pend.length)) % 16 ≠ 0 →
    ∃ w' rx' pend', decryptLoop dbg worldBus sn fuel g rd remain (w, rx) = (.error (.err .internalError), (w', rx')) ∧
      Sock w0 w' sn.idx base p ∧ QRel rx' ⟨cap, app, pend'⟩ := by
  intro fuel
  induction fuel with
  | zero => intro n w q rd remain g C pend rx _ _ _ _ h5 h6; omega
  | succ fuel ih =>
    intro n w q rd remain g C pend rx hs hrd hpq hn hpos hfuel hlen hg hC hCl hq hcap hal
    have hsize : app.length + pend.length ≤ cap := hq.size
    have hk : (min16 16 remain).toNat = min 16 n := by
      rw [min16_toNat, hn]; rfl
    generalize hdl : min16 16 remain = dl at hk
    have hsub : (remain - dl).toNat = n - min 16 n := by
      have := u16_lt remain
      rw [u16_sub_toNat, hk, hn]; omega
    have hrd' : (rd + dl).toNat = (base + (q + min 16 n)) % 65536 := by
      rw [UInt16.toNat_add, hrd, hk]; omega
    have eread := hs.read rd q dl.toNat hrd hpq (by omega)
    rw [hk] at eread
    generalize hX : ((w0.chip.received sn.idx).drop q).take (min 16 n) = Y at eread
    have hXl : Y.length = min 16 n := by rw [← hX, List.length_take, List.length_drop]; omega
    obtain ⟨g1, e1, hg1⟩ := decrypt_run hg hC Y (by rw [hXl]; omega)
    rw [← List.length_append] at hg1
    generalize hP : gctr (Spec.Gcm.aes fun i => key[i.val]) (counter (inc32 (J0 iv.toList)) (C.length / 16)) Y = P at e1
    have hPl : P.length = min 16 n := by rw [← hP, gctr_length, hXl]
    unfold decryptLoop
    simp only [hdl]
    rw [hk, X.bind_ok (X.onFst_run (internal_ok eread) rx), e1, ofCipher_ok, pure_bind]
    dsimp only
    by_cases hfit : app.length + pend.length + min 16 n ≤ cap
    · obtain ⟨rx1, e2, hq1⟩ := hq.extend dbg P (by
        show app.length + pend.length + P.length ≤ cap
        rw [hPl]; exact hfit)
      dsimp only at hq1
      rw [X.bind_ok (extendRx_ok e2)]
      have hlast : ¬ n ≤ 16 := by omega
      have hz : remain - dl ≠ 0 := by
        rw [u16_ne_zero, hsub]; omega
      rw [if_neg hz]
      have hmin : min 16 n = 16 := by omega
      rw [hmin] at hXl hPl hrd' hsub
      exact ih (n - 16) w.tick (q + 16) (rd + dl) (remain - dl) g1 (C ++ Y) (pend ++ P) rx1
        hs.tick hrd' (by omega) hsub (by omega) (by omega) (by omega) hg1 (by rw [List.length_append, hXl]; omega)
        (by rw [List.length_append, hXl]; omega) hq1 (by rw [List.length_append, hPl]; omega) (by rw [List.length_append, hPl]; omega)
    · have e2 := hq.extend_full dbg P (by show cap < app.length + pend.length + P.length; omega)
        (by show app.length + pend.length + P.length ≠ cap + 1; omega)
      refine ⟨w.tick, rx, pend, ?_, hs.tick, hq⟩
      refine X.bind_error ?_
      rw [extendRx_run]
      dsimp only
      rw [e2]

theorem decryptRecordInplace_overflow (dbg : Bool) {w0 w : World} {sn : Sn} {base p m cap : Nat} {app : Bytes} {rx : Buffer}
    (key : Block) (iv : Vector UInt8 12) (header : RecordHeader)
    (hs : Sock w0 w sn.idx base p) (hrd : w.chip.rxRd sn.idx = (base + p) % 65536) (hm : (RecordHeader.length header).toNat = m)
    (hm17 : 17 ≤ m) (hlen : p + m ≤ (w0.chip.received sn.idx).length) (hq : QRel rx ⟨cap, app, []⟩) (hcap : cap + 1 < app.length + (m - 16))
    (hal : (cap + 1 - app.length) % 16 ≠ 0) :
    ∃ w' rx' pend', decryptRecordInplace dbg worldBus sn key iv header (w, rx) = (.error (.err .internalError), (w', rx')) ∧
      Sock w0 w' sn.idx base p ∧ QRel rx' ⟨cap, app, pend'⟩ := by
  have hlt := u16_lt (RecordHeader.length header)
  have hs1 := hs.tick
  have hs2 := hs1.tick
  have h1 : RxAt w.tick.chip sn.idx base p := ⟨hs1.rx, by rw [tick_rxRd]; exact hrd⟩
  have h2 : RxAt w.tick.tick.chip sn.idx base p := h1.tick
  have hrsr := h1.rsr_toNat
  have hle := hs1.pre.length_le
  have hc1 : ¬ UInt16.ofNat (w.tick.chip.rxRsr sn.idx) < RecordHeader.length header := by
    rw [UInt16.lt_iff_toNat_lt, hrsr, hm]; omega
  have hptr : (UInt16.ofNat (w.tick.tick.chip.rxRd sn.idx)).toNat = (base + p) % 65536 := by
    rw [ofNat16_toNat (by rw [h2.rd]; omega), h2.rd]
  have hc2 : (16 : UInt16) ≤ RecordHeader.length header := by
    rw [UInt16.le_iff_toNat_le, hm]; show 16 ≤ m; omega
  have hrem : (RecordHeader.length header - 16).toNat = m - 16 := by
    rw [u16_sub_toNat, hm, show (16 : UInt16).toNat = 16 from rfl]; omega
  have hc3 : RecordHeader.length header - 16 ≠ 0 := by rw [u16_ne_zero, hrem]; omega
  obtain ⟨w3, rx3, pend3, e3, hs3, hq3⟩ := decryptLoop_overflow dbg sn w0 base p cap app (RecordHeader.length header - 16).toNat (m - 16)
    w.tick.tick p _ (RecordHeader.length header - 16) _ [] [] rx hs2 hptr (Nat.le_refl _) hrem (by omega) (by omega) (by omega)
    (new_inv key iv header) rfl (by simp only [List.length_nil]; omega) hq (by simp only [List.length_nil]; omega) hal
  refine ⟨w3, rx3, pend3, ?_, hs3, hq3⟩
  unfold decryptRecordInplace
  rw [X.bind_ok (X.onFst_run (internal_ok (run_snRxRsr sn w)) rx), if_neg hc1,
    X.bind_ok (X.onFst_run (internal_ok (run_snRxRd sn w.tick)) rx)]
  simp only [if_pos hc2]
  rw [if_neg hc3, X.bind_error e3]

theorem recv_overflow (dbg : Bool) (fuel : Nat) (secs : UInt32) {w0 w : World} {base p cap : Nat} {app : Bytes} (c : Client x)
    (header record t : Bytes) (hs : Sock w0 w c.sn.idx base p) (hrd : w.chip.rxRd c.sn.idx = (base + p) % 65536) (hlen5 : header.length = 5)
    (hbytes : ((w0.chip.received c.sn.idx).drop p).take (5 + record.length) = header ++ record)
    (hct : header.getD 0 0 = 23) (hm : (be16 (header.getD 3 0) (header.getD 4 0)).toNat = record.length)
    (h17 : 17 ≤ record.length) (hlim : record.length ≤ c.recordSizeLimit.toNat) (hq : QRel c.rx ⟨cap, app, []⟩)
    (hcap : cap + 1 < app.length + (record.length - 16)) (hal : (cap + 1 - app.length) % 16 ≠ 0)
    (hst : c.ks.serverTraffic = some t) :
    (∃ w', dbg = true ∧ recv dbg fuel worldBus secs (w, c) = (.error (.stop .panic), (w', c))) ∨
    ∃ w1 rx1 pend, Sock w0 w1 c.sn.idx base (p + 5) ∧ QRel rx1 ⟨cap, app, pend⟩ ∧
      recv dbg fuel worldBus secs (w, c) = failFatal worldBus .internalError secs (w1, { c with rx := rx1 }) := by
  have hbl := congrArg List.length hbytes
  simp only [List.length_take, List.length_drop, List.length_append, hlen5] at hbl
  have hh : ((w0.chip.received c.sn.idx).drop p).take 5 = header := by
    have := congrArg (List.take 5) hbytes
    rw [List.take_take, show min 5 (5 + record.length) = 5 by omega, ← hlen5, List.take_left] at this
    rw [← hlen5]; exact this
  unfold recv
  rcases recvHeader_run dbg c header .applicationData hs hrd hh (by rw [hct]; rfl) hm hlim (by omega) with
    ⟨w', hdbg, e1⟩ | ⟨w', e1, hs1, hrd1⟩
  · exact .inl ⟨w', hdbg, X.bind_error (orFatal_stop e1)⟩
  right
  have hkn : c.ks.serverKeyAndNonce = some (KeySchedule.keyAndNonce x t c.ks.readSeq) := by
    unfold KeySchedule.serverKeyAndNonce; rw [hst]; rfl
  obtain ⟨w1, rx1, pend, e2, hs2, hq2⟩ := decryptRecordInplace_overflow dbg (m := record.length) (KeySchedule.keyAndNonce x t c.ks.readSeq).1
    (KeySchedule.keyAndNonce x t c.ks.readSeq).2 (toHeader header) hs1 hrd1 hm h17 (by omega) hq hcap hal
  refine ⟨w1, rx1, pend, hs2, hq2, ?_⟩
  rw [X.bind_ok (orFatal_ok e1)]
  dsimp only
  rw [X.bind_ok (getC_run (w', c))]
  have hc2 : (toHeader header).contentType = some .applicationData := by
    unfold RecordHeader.contentType
    have : (toHeader header)[0] = header.getD 0 0 := rfl
    rw [this, hct]
    rfl
  simp only [hc2]
  have hbody : recvBody dbg worldBus secs (toHeader header) .applicationData (w', c)
      = ((orFatal worldBus secs (onRx (decryptRecordInplace dbg worldBus c.sn (KeySchedule.keyAndNonce x t c.ks.readSeq).1
          (KeySchedule.keyAndNonce x t c.ks.readSeq).2 (toHeader header))) >>= fun ct =>
        match ct with
        | .ok ct => pure ct
        | .error _ => failFatal worldBus .decodeError secs) : X TErr (World × Client x) ContentType) (w', c) := by
    unfold recvBody recvEncryptedBody
    rw [if_pos rfl, X.bind_ok (getC_run (w', c))]
    dsimp only
    rw [hkn]
    rfl
  have e3 := hbody.trans (X.bind_run _ _ _)
  rw [orFatal_err (onRx_run e2)] at e3
  have e4 : recvBody dbg worldBus secs (toHeader header) .applicationData (w', c)
      = failFatal worldBus .internalError secs (w1, { c with rx := rx1 }) := by
    rw [e3]
    exact congrFun (failFatal_bind worldBus .internalError secs fun ct : Except UInt8 ContentType =>
      match ct with
      | .ok ct => pure ct
      | .error _ => failFatal worldBus .decodeError secs) (w1, { c with rx := rx1 })
  rw [X.bind_run, e4]
  exact congrFun (failFatal_bind worldBus .internalError secs _) (w1, { c with rx := rx1 })

/-- A call of `process` for a record for which the buffer has no room. -/
theorem no_room (hx : x.Standard) (dbg : Bool) (fuel : Nat) (rng : Rng x) (secs : UInt32) {w : World} {c : Client x} {t : Bytes} {p : Nat}
    {unread content : Bytes} (hr : Ready w c t p unread) (hi : Quiet w c)
    (ha : Spec.Tls.protect t c.ks.readSeq.toNat 23 content <+: (w.chip.received c.sn.toU8.toNat).drop p)
    (hs : content.length + 17 ≤ c.recordSizeLimit.toNat) (hf : c.rx.n < unread.length + content.length + 1)
    (hal : (c.rx.n - unread.length) % 16 ≠ 0) :
    let r := process dbg fuel worldBus rng secs (w, c)
    (dbg = true ∧ r.1 = .error (.stop .panic)) ∨ Refused .internalError unread r := by
  intro r
  obtain ⟨header, record, e1, ⟨v1, v2, hh⟩, e3, -⟩ := protect_opens t c.ks.readSeq.toNat 23 content
  rw [e1] at ha
  have h5 : header.length = 5 := by rw [hh]; rfl
  have hlt := u16_lt c.recordSizeLimit
  obtain ⟨base, hat⟩ := hr.rx.at
  have hpl := ha.length_le
  rw [List.length_append, List.length_drop, h5] at hpl
  have htake : ((w.chip.received c.sn.idx).drop p).take (5 + record.length) = header ++ record := by
    have := List.prefix_iff_eq_take.mp ha
    rw [List.length_append, h5] at this
    exact this.symm
  obtain ⟨w0, hs0, hrd0, hp⟩ := process_recv dbg fuel rng secs c (by rw [connected_state hr.connected]; rfl) hat hr.tx hi
    (by show p + 5 ≤ (w.chip.received c.sn.toU8.toNat).length; omega)
  have hn : c.rx.n - 1 + 1 = c.rx.n := hr.holds.cap
  have := recv_overflow dbg fuel secs (cap := c.rx.n - 1) (app := unread) c header record t hs0 hrd0 h5 htake (by rw [hh]; rfl)
    (by rw [hh]; exact u16_value record.length (by omega)) (by omega) (by omega) hr.holds (by omega) (by rw [hn]; exact hal) hr.traffic
  rcases this with ⟨w', hdbg, e⟩ | ⟨w1, rx1, pend, g1, g2, g3⟩
  · left
    exact ⟨hdbg, by show (process _ _ _ _ _ _).1 = _; rw [hp, X.bind_error e]⟩
  right
  show Refused _ _ (process dbg fuel worldBus rng secs (w, c))
  rw [hp]
  exact refused_of hx dbg secs .internalError g1.tx hr.client g2 g3

end Verif.Tls
