import Verif.Proof.TlsPlain
/-!
# Records that arrive while a part of a handshake message is held
-/
namespace Verif.Tls
open Verif Hl
open _root_.Verif.Spec (World worldBus TxState RxState Queue Chip Mem)

variable {x : Crypto}

theorem QRel.fragment {b : Buffer} {cap : Nat} {app pend : Bytes} (h : QRel b ⟨cap, app, pend⟩) (hp : pend ≠ []) :
    b.containsHandshakeFragment = true := by
  have h1 := h.cap; have h2 := h.head; have h3 := h.size; have h4 := h.tail; have h5 := h.adTail
  have h6 : 0 < pend.length := List.length_pos_iff.mpr hp
  simp only [Queue.size] at h3 h4
  unfold Buffer.containsHandshakeFragment
  rw [decide_eq_true_eq, h4, h5]
  intro h
  simp only at h1 h
  have e1 : b.head + (app.length + pend.length) < 2 * b.buf.length := by omega
  by_cases g1 : b.head + (app.length + pend.length) < b.buf.length
  · rw [Nat.mod_eq_of_lt g1, Nat.mod_eq_of_lt (by omega)] at h
    omega
  · rw [Nat.mod_eq_sub_mod (by omega), Nat.mod_eq_of_lt (by omega)] at h
    by_cases g2 : b.head + app.length < b.buf.length
    · rw [Nat.mod_eq_of_lt g2] at h; omega
    · rw [Nat.mod_eq_sub_mod (by omega), Nat.mod_eq_of_lt (by omega)] at h
      omega

/-- What `Client::recv` does with a protected record of another type while a part of a handshake message is held: it is decrypted, and then
refused; or an assertion fails. -/
theorem recv_fragment (hx : x.Standard) (dbg : Bool) (fuel : Nat) (secs : UInt32) {w0 w : World} {base p cap : Nat} {app pend : Bytes} (c : Client x)
    (header record : Bytes) (t inner : Bytes) (last : UInt8) (ct : ContentType)
    (hs : Sock w0 w c.sn.idx base p) (hrd : w.chip.rxRd c.sn.idx = (base + p) % 65536)
    (hlen5 : header.length = 5) (hbytes : ((w0.chip.received c.sn.idx).drop p).take (5 + record.length) = header ++ record)
    (hct : header.getD 0 0 = 23) (hm : (be16 (header.getD 3 0) (header.getD 4 0)).toNat = record.length)
    (h17 : 17 ≤ record.length) (hlim : record.length ≤ c.recordSizeLimit.toNat)
    (hq : QRel c.rx ⟨cap, app, pend⟩) (hp : pend ≠ []) (hcap : app.length + pend.length + (record.length - 16) ≤ cap)
    (hst : c.ks.serverTraffic = some t) (hu : Spec.Tls.unprotect t c.ks.readSeq.toNat header record = some inner)
    (hlast : inner.getLast? = some last) (hte : ContentType.tryFrom last = .ok ct) (hne : ct ≠ .handshake) :
    (∃ s', dbg = true ∧ recv dbg fuel worldBus secs (w, c) = (.error (.stop .panic), s')) ∨
    (∃ w1 rx1, Sock w0 w1 c.sn.idx base (p + 5 + record.length) ∧ w1.chip.rxRd c.sn.idx = (base + (p + 5 + record.length)) % 65536 ∧
      recv dbg fuel worldBus secs (w, c) = failFatal worldBus .unexpectedMessage secs (w1, { c with rx := rx1 })) := by
  have hbl := congrArg List.length hbytes
  simp only [List.length_take, List.length_drop, List.length_append, hlen5] at hbl
  have hh : ((w0.chip.received c.sn.idx).drop p).take 5 = header := by
    have := congrArg (List.take 5) hbytes
    rw [List.take_take, show min 5 (5 + record.length) = 5 by omega, ← hlen5, List.take_left] at this
    rw [← hlen5]; exact this
  have hr : ((w0.chip.received c.sn.idx).drop (p + 5)).take record.length = record := by
    have := congrArg (List.drop 5) hbytes
    rw [List.drop_take, List.drop_drop, show 5 + record.length - 5 = record.length by omega] at this
    rw [this, ← hlen5, List.drop_left]
  unfold recv
  rcases recvHeader_run dbg c header .applicationData hs hrd hh (by rw [hct]; rfl) hm hlim (by omega) with
    ⟨w', hdbg, e1⟩ | ⟨w', e1, hs1, hrd1⟩
  · exact .inl ⟨_, hdbg, X.bind_error (orFatal_stop e1)⟩
  have hkn : c.ks.serverKeyAndNonce = some (KeySchedule.keyAndNonce x t c.ks.readSeq) := by
    unfold KeySchedule.serverKeyAndNonce; rw [hst]; rfl
  obtain ⟨w1, rx1, e2, hs2, hrd2, hq2⟩ := decryptRecordInplace_run dbg (m := record.length) (KeySchedule.keyAndNonce x t c.ks.readSeq).1
    (KeySchedule.keyAndNonce x t c.ks.readSeq).2 (toHeader header) hs1 hrd1 hm h17 (by omega) hq hcap
  rw [hr, toHeader_toList _ hlen5, unprotect_eq hx, hu] at e2
  simp only [hlast, Option.getD_some, hte] at e2
  rw [X.bind_ok (orFatal_ok e1)]
  dsimp only
  rw [X.bind_ok (getC_run (w', c))]
  have hc2 : (toHeader header).contentType = some .applicationData := by
    unfold RecordHeader.contentType
    have : (toHeader header)[0] = header.getD 0 0 := rfl
    rw [this, hct]
    rfl
  simp only [hc2]
  have hbody : recvBody dbg worldBus secs (toHeader header) .applicationData (w', c) = (.ok ct, (w1, { c with rx := rx1 })) := by
    unfold recvBody recvEncryptedBody
    rw [if_pos rfl, X.bind_ok (getC_run (w', c))]
    dsimp only
    rw [hkn]
    dsimp only
    rw [X.bind_ok (orFatal_ok (onRx_run e2))]
    rfl
  rw [X.bind_ok hbody]
  have fin : ∀ rx2, recvRecord dbg fuel worldBus secs (toHeader header) .applicationData ct c.rx.containsHandshakeFragment (w1, { c with rx := rx2 })
      = failFatal worldBus .unexpectedMessage secs (w1, { c with rx := rx2 }) := by
    intro rx2
    unfold recvRecord
    rw [hq.fragment hp, if_pos ⟨rfl, hne⟩]
  by_cases happ : ct = .applicationData
  · by_cases hpan : dbg = true ∧ rx1.capacity < (toHeader header).length.toNat - 17
    · left
      refine ⟨(w1, { c with rx := rx1 }), hpan.1, ?_⟩
      have e6 : countAppData dbg (toHeader header) ct (w1, { c with rx := rx1 }) = (.error (.stop .panic), (w1, { c with rx := rx1 })) := by
        unfold countAppData
        rw [if_pos happ, X.bind_ok (getC_run _)]
        dsimp only
        unfold Buffer.incrementApplicationDataTail
        rw [if_pos hpan]
        rfl
      exact X.bind_error e6
    · right
      refine ⟨w1, { rx1 with adTail := (rx1.adTail + ((toHeader header).length.toNat - 17)) % rx1.n }, hs2, hrd2, ?_⟩
      have e6 : countAppData dbg (toHeader header) ct (w1, { c with rx := rx1 })
          = (.ok (), (w1, { c with rx := { rx1 with adTail := (rx1.adTail + ((toHeader header).length.toNat - 17)) % rx1.n } })) := by
        unfold countAppData
        rw [if_pos happ, X.bind_ok (getC_run _)]
        dsimp only
        unfold Buffer.incrementApplicationDataTail
        rw [if_neg hpan]
        rfl
      rw [X.bind_ok e6]
      exact fin _
  · right
    refine ⟨w1, rx1, hs2, hrd2, ?_⟩
    have e6 : countAppData dbg (toHeader header) ct (w1, { c with rx := rx1 }) = (.ok (), (w1, { c with rx := rx1 })) := by
      unfold countAppData
      rw [if_neg happ]
      rfl
    rw [X.bind_ok e6]
    exact fin _

end Verif.Tls
