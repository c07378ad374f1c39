import Verif.Proof.TlsReceive
/-!
# Receiving a record that is not protected
-/
namespace Verif.Tls
open Verif Hl
open _root_.Verif.Spec (World worldBus TxState RxState Queue QOp QOut Chip Mem)

variable {x : Crypto}

theorem u16_sub_add (a b n : UInt16) (h : n.toNat ≤ (a - b).toNat) : (a - (b + n)).toNat = (a - b).toNat - n.toNat := by
  have := u16_lt a; have := u16_lt b; have := u16_lt n
  rw [u16_sub_toNat] at h
  rw [u16_sub_toNat, u16_sub_toNat, UInt16.toNat_add]
  omega

theorem onRx_extend {dbg : Bool} {src : Bytes} {w : World} {c : Client x} {rx : Buffer} (h : c.rx.extendFromSlice dbg src = .ok rx) :
    onRx (extendRx dbg src) (w, c) = (.ok (), (w, { c with rx })) := by
  unfold onRx
  rw [extendRx_run, h]

/-- The loop over the body of a record that has arrived. -/
theorem recvBodyLoop_run (dbg : Bool) {w0 : World} {base p cap : Nat} {app : Bytes} : ∀ (fuel n : Nat) (w : World) (c : Client x) (r : Ptrs)
    (q : Nat) (pend : Bytes), n < fuel → Sock w0 w c.sn.idx base p → r.sn = c.sn → r.ptr.toNat = (base + q) % 65536 → p ≤ q →
    n ≤ r.remain.toNat → q + n ≤ (w0.chip.received c.sn.idx).length → QRel c.rx ⟨cap, app, pend⟩ → app.length + pend.length + n ≤ cap →
    ∃ w' r' rx', recvBodyLoop dbg worldBus fuel r n (w, c) = (.ok r', (w', { c with rx := rx' })) ∧ Sock w0 w' c.sn.idx base p ∧
      r'.sn = c.sn ∧ r'.ptr.toNat = (base + (q + n)) % 65536 ∧
      QRel rx' ⟨cap, app, pend ++ ((w0.chip.received c.sn.idx).drop q).take n⟩ ∧ rx'.head = c.rx.head ∧ rx'.hsHead = c.rx.hsHead := by
  intro fuel
  induction fuel with
  | zero => intro n _ _ _ _ _ h; omega
  | succ fuel ih =>
    intro n w c r q pend hf hs hsn hptr hpq hrem hlen hq hcap
    by_cases hn : n = 0
    · subst hn
      refine ⟨w, r, c.rx, ?_, hs, hsn, by rw [hptr]; rfl, by simpa using hq, rfl, rfl⟩
      unfold recvBodyLoop
      simp only [Nat.zero_min, if_true]
      rfl
    · have hk : min n 64 ≠ 0 := by omega
      have hk64 : min n 64 ≤ 64 := by omega
      have hkn : min n 64 ≤ n := by omega
      generalize hkk : min n 64 = k at hk hk64 hkn
      have hlk : (lenU16 k).toNat = k := by rw [lenU16_toNat]; omega
      have hmin : min16 r.remain (lenU16 k) = lenU16 k := by
        apply u16_ext
        rw [min16_toNat, hlk]
        omega
      have hbl : (((w0.chip.received c.sn.idx).drop q).take k).length = k := by
        rw [List.length_take, List.length_drop]; omega
      have e1 : tcpReaderReadExact worldBus r k w
          = (.ok (((w0.chip.received c.sn.idx).drop q).take k, { r with ptr := r.ptr + lenU16 k }), w.tick) := by
        unfold tcpReaderReadExact
        simp only [hmin]
        rw [if_neg (by simp), hsn, M.bind_ok (hs.read r.ptr q k hptr hpq (by omega))]
        rfl
      obtain ⟨rx1, e2, hq1⟩ := hq.extend dbg (((w0.chip.received c.sn.idx).drop q).take k) (by
        simp only [Queue.size]; rw [hbl]; omega)
      have hh := extend_heads e2
      have hptr' : ({ r with ptr := r.ptr + lenU16 k } : Ptrs).ptr.toNat = (base + (q + k)) % 65536 := by
        show (r.ptr + lenU16 k).toNat = _
        rw [UInt16.toNat_add, hptr, hlk]
        omega
      obtain ⟨w', r', rx', e3, g1, g2, g3, g4, g5, g6⟩ := ih (n - k) w.tick { c with rx := rx1 } { r with ptr := r.ptr + lenU16 k } (q + k) _
        (by omega) hs.tick hsn hptr' (by omega)
        (by
          show n - k ≤ (r.tail - (r.ptr + lenU16 k)).toNat
          rw [u16_sub_add _ _ _ (by rw [hlk]; exact Nat.le_trans hkn hrem), hlk]
          have : n ≤ (r.tail - r.ptr).toNat := hrem
          omega) (by show q + k + (n - k) ≤ (w0.chip.received c.sn.idx).length; omega) hq1 (by
          show app.length + (pend ++ ((w0.chip.received c.sn.idx).drop q).take k).length + (n - k) ≤ cap
          rw [List.length_append, hbl]; omega)
      refine ⟨w', r', rx', ?_, g1, g2, by rw [g3]; congr 2; omega, ?_, g5.trans hh.1, g6.trans hh.2⟩
      · unfold recvBodyLoop
        simp only [hkk]
        rw [if_neg hk, X.bind_ok (onHl_ok' e1 c)]
        dsimp only
        rw [X.bind_ok (onRx_extend e2)]
        exact e3
      · have e4 : ((w0.chip.received c.sn.idx).drop q).take n
            = ((w0.chip.received c.sn.idx).drop q).take k ++ ((w0.chip.received c.sn.idx).drop (q + k)).take (n - k) := by
          rw [← List.drop_drop, ← List.take_add, show k + (n - k) = n by omega]
        rw [e4, ← List.append_assoc]
        exact g4

theorem recvUnencryptedBody_run (dbg : Bool) {w0 w : World} {base p cap : Nat} {app pend : Bytes} (c : Client x) (header : RecordHeader) (m : Nat)
    (hm : header.length.toNat = m) (hm0 : 0 < m)
    (hs : Sock w0 w c.sn.idx base p) (hrd : w.chip.rxRd c.sn.idx = (base + p) % 65536)
    (hlen : p + m ≤ (w0.chip.received c.sn.idx).length) (hq : QRel c.rx ⟨cap, app, pend⟩) (hcap : app.length + pend.length + m ≤ cap) :
    (∃ w', dbg = true ∧ recvUnencryptedBody dbg worldBus header (w, c) = (.error (.stop .panic), (w', c))) ∨
    ∃ w' rx', recvUnencryptedBody dbg worldBus header (w, c) = (.ok (), (w', { c with rx := rx' })) ∧ Sock w0 w' c.sn.idx base (p + m) ∧
      w'.chip.rxRd c.sn.idx = (base + (p + m)) % 65536 ∧
      QRel rx' ⟨cap, app, pend ++ ((w0.chip.received c.sn.idx).drop p).take m⟩ ∧ rx'.head = c.rx.head ∧ rx'.hsHead = c.rx.hsHead := by
  unfold recvUnencryptedBody
  rw [X.bind_ok (getC_run (w, c))]
  rcases tcpReader_sock dbg hs hrd (by omega) with ⟨w1, hdbg, e1⟩ | ⟨w1, r, e1, hs1, hrd1, hsn, hhead, hptr, L, hL, hL1, hL2, hsl, hrem⟩
  · exact .inl ⟨w1, hdbg, X.bind_error (onHl_panic e1 c)⟩
  right
  have hp0 : r.ptr.toNat = (base + p) % 65536 := by rw [hptr]; exact hhead
  obtain ⟨w2, r2, rx2, e2, hs2, hsn2, hp2, hq2, h1, h2⟩ := recvBodyLoop_run dbg (header.length.toNat + 1) m w1 c r p pend (by omega) hs1 hsn hp0
    (Nat.le_refl _) (by omega) hlen hq hcap
  obtain ⟨w3, w4, e3, e4, hs4, hrd4⟩ := hs2.consume r2.ptr (p + m) hp2 (by omega) hlen
  have e5 : tcpReaderDone worldBus r2 w2 = (.ok (), w4) := by
    unfold tcpReaderDone
    rw [hsn2, M.bind_ok e3]
    exact e4
  refine ⟨w4, rx2, ?_, hs4, hrd4, hq2, h1, h2⟩
  rw [X.bind_ok (onHl_ok' e1 c), hm] 
  rw [hm] at e2
  rw [X.bind_ok e2]
  exact onBus_ok' e5 _

/-- What `Client::recv` does with a record that is not protected. -/
theorem recv_plain (dbg : Bool) (fuel : Nat) (secs : UInt32) {w0 w : World} {base p cap : Nat} {app pend : Bytes} (c : Client x)
    (header record : Bytes) (ct : ContentType)
    (hs : Sock w0 w c.sn.idx base p) (hrd : w.chip.rxRd c.sn.idx = (base + p) % 65536)
    (hlen5 : header.length = 5) (hbytes : ((w0.chip.received c.sn.idx).drop p).take (5 + record.length) = header ++ record)
    (hct : ContentType.tryFrom (header.getD 0 0) = .ok ct) (hne : ct ≠ .applicationData)
    (hm : (be16 (header.getD 3 0) (header.getD 4 0)).toNat = record.length) (h0 : 0 < record.length)
    (hlim : record.length ≤ c.recordSizeLimit.toNat) (hq : QRel c.rx ⟨cap, app, pend⟩) (hcap : app.length + pend.length + record.length ≤ cap) :
    (∃ w', dbg = true ∧ recv dbg fuel worldBus secs (w, c) = (.error (.stop .panic), (w', c))) ∨
    (∃ w1 rx1, Sock w0 w1 c.sn.idx base (p + 5 + record.length) ∧ w1.chip.rxRd c.sn.idx = (base + (p + 5 + record.length)) % 65536 ∧
      QRel rx1 ⟨cap, app, pend ++ record⟩ ∧ (rx1.head = c.rx.head ∧ rx1.hsHead = c.rx.hsHead) ∧
      recv dbg fuel worldBus secs (w, c)
        = recvRecord dbg fuel worldBus secs (toHeader header) ct ct c.rx.containsHandshakeFragment (w1, { c with rx := rx1 })) := by
  have hbl := congrArg List.length hbytes
  simp only [List.length_take, List.length_drop, List.length_append, hlen5] at hbl
  have hh : ((w0.chip.received c.sn.idx).drop p).take 5 = header := by
    have := congrArg (List.take 5) hbytes
    rw [List.take_take, show min 5 (5 + record.length) = 5 by omega, ← hlen5, List.take_left] at this
    rw [← hlen5]; exact this
  have hr : ((w0.chip.received c.sn.idx).drop (p + 5)).take record.length = record := by
    have := congrArg (List.drop 5) hbytes
    rw [List.drop_take, List.drop_drop, show 5 + record.length - 5 = record.length by omega] at this
    rw [this, ← hlen5, List.drop_left]
  unfold recv
  rcases recvHeader_run dbg c header ct hs hrd hh hct hm hlim (by omega) with ⟨w', hdbg, e1⟩ | ⟨w', e1, hs1, hrd1⟩
  · exact .inl ⟨w', hdbg, X.bind_error (orFatal_stop e1)⟩
  have hc2 : (toHeader header).contentType = some ct := by
    unfold RecordHeader.contentType
    have : (toHeader header)[0] = header.getD 0 0 := rfl
    rw [this, hct]
    rfl
  rcases recvUnencryptedBody_run dbg c (toHeader header) record.length hm h0 hs1 hrd1 (by omega) hq hcap with
    ⟨w2, hdbg, e2⟩ | ⟨w2, rx2, e2, hs2, hrd2, hq2, h1, h2⟩
  · left
    refine ⟨w2, hdbg, ?_⟩
    rw [X.bind_ok (orFatal_ok e1)]
    dsimp only
    rw [X.bind_ok (getC_run (w', c))]
    simp only [hc2]
    unfold recvBody
    rw [if_neg hne]
    exact X.bind_error (X.bind_error (orFatal_stop e2))
  · right
    rw [hr] at hq2
    refine ⟨w2, rx2, hs2, hrd2, hq2, ⟨h1, h2⟩, ?_⟩
    rw [X.bind_ok (orFatal_ok e1)]
    dsimp only
    rw [X.bind_ok (getC_run (w', c))]
    simp only [hc2]
    have e3 : recvBody dbg worldBus secs (toHeader header) ct (w', c) = (.ok ct, (w2, { c with rx := rx2 })) := by
      unfold recvBody
      rw [if_neg hne, X.bind_ok (orFatal_ok e2)]
      rfl
    have e6 : countAppData dbg (toHeader header) ct (w2, { c with rx := rx2 }) = (.ok (), (w2, { c with rx := rx2 })) := by
      unfold countAppData
      rw [if_neg hne]
      rfl
    rw [X.bind_ok e3, X.bind_ok e6]

end Verif.Tls
