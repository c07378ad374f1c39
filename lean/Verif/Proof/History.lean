import Verif.Proof.UdpRx
import Verif.Proof.Call
import Verif.Spec.History
namespace Verif
open Hl Spec

/-- The blocks and received bytes of socket `k` are the same in both chips. -/
structure SameSock (c c' : Chip) (k : Nat) : Prop where
  reg : ∀ a, c'.mem (4 * k + 1) a = c.mem (4 * k + 1) a
  tx : ∀ a, c'.mem (4 * k + 2) a = c.mem (4 * k + 2) a
  rx : ∀ a, c'.mem (4 * k + 3) a = c.mem (4 * k + 3) a
  received : c'.received k = c.received k

theorem SameSock.rxAt {c c' : Chip} {k base p : Nat} (h : SameSock c c' k) (hr : RxAt c k base p) : RxAt c' k base p :=
  ⟨(RxSame.of_mem (fun a _ => h.reg a) h.rx h.received).rxOk hr.rx, by
    rw [← hr.rd]; unfold Chip.rxRd Mem.word; rw [h.reg, h.reg]⟩

theorem SameSock.txState {c c' : Chip} {k : Nat} (h : SameSock c c' k) (hr : TxState c k) : TxState c' k := by
  have e1 : c'.txSize k = c.txSize k := by unfold Chip.txSize; rw [h.reg]
  have e2 : c'.txRd k = c.txRd k := by unfold Chip.txRd Mem.word; rw [h.reg, h.reg]
  have e3 : c'.txWr k = c.txWr k := by unfold Chip.txWr Mem.word; rw [h.reg, h.reg]
  have e4 : c'.txFsr k = c.txFsr k := by unfold Chip.txFsr Mem.word; rw [h.reg, h.reg]
  exact ⟨by rw [e1]; exact hr.size_dvd, by rw [e1]; exact hr.size_lt, by rw [e2, e3]; exact hr.idle,
    by rw [e1, e4]; exact hr.fsr_le⟩

theorem writeBytes_sameSock (j k blk : Nat) (hjk : k ≠ j) (h : blk = 4 * j + 1 ∨ blk = 4 * j + 2 ∨ blk = 4 * j + 3)
    (xs : Bytes) (c : Chip) (a : Nat) : SameSock c (c.writeBytes blk a xs) k := by
  obtain ⟨h1, h2, _⟩ := writeBytes_frame j blk h xs c a
  exact ⟨fun x => h1 _ _ (by omega) (by omega) (by omega), fun x => h1 _ _ (by omega) (by omega) (by omega),
    fun x => h1 _ _ (by omega) (by omega) (by omega), h2 k hjk⟩

theorem idx_inj {a b : Sn} (h : a.idx = b.idx) : a = b := by
  cases a <;> cases b <;> first | rfl | (exact absurd h (by decide))

theorem filter_sock {l l' : List Sent} {j k : Nat} (hjk : k ≠ j)
    (h : l'.filter (·.sock ≠ j) = l.filter (·.sock ≠ j)) : l'.filter (·.sock = k) = l.filter (·.sock = k) := by
  have : ∀ l : List Sent, l.filter (·.sock = k) = (l.filter (·.sock ≠ j)).filter (·.sock = k) := by
    intro l
    rw [List.filter_filter]
    congr 1
    funext x
    by_cases hx : x.sock = k <;> simp [hx, hjk]
  rw [this l', h, ← this l]

theorem tick_destIp (w : World) (k : Nat) : w.tick.chip.destIp k = w.chip.destIp k :=
  destIp_congr fun x h1 h2 => tick_frame _ _ _ (by omega) (by omega)

theorem tick_destPort (w : World) (k : Nat) : w.tick.chip.destPort k = w.chip.destPort k := by
  unfold Chip.destPort Mem.word
  rw [tick_frame _ _ _ (by omega) (by omega), tick_frame _ _ _ (by omega) (by omega)]

/-- What any call on another socket does to socket `k`. -/
structure Kept (w w' : World) (k : Nat) : Prop where
  rx : ∀ base p, RxAt w.chip k base p → RxAt w'.chip k base p
  tx : TxState w.chip k → TxState w'.chip k
  pre : w.chip.received k <+: w'.chip.received k
  sent : w'.chip.sent.filter (·.sock = k) = w.chip.sent.filter (·.sock = k)

theorem Kept.refl (w : World) (k : Nat) : Kept w w k := ⟨fun _ _ h => h, fun h => h, List.prefix_rfl, rfl⟩

theorem Kept.trans {u v w : World} {k : Nat} (h1 : Kept u v k) (h2 : Kept v w k) : Kept u w k :=
  ⟨fun b p h => h2.rx b p (h1.rx b p h), fun h => h2.tx (h1.tx h), h1.pre.trans h2.pre, h2.sent.trans h1.sent⟩

theorem Kept.tick (w : World) (k : Nat) : Kept w w.tick k :=
  ⟨fun _ _ h => h.tick, fun h => h.tick, tick_received_prefix w k, by rw [tick_sent]⟩

theorem Kept.of_or {w w' : World} (k : Nat) (h : w' = w ∨ w' = w.tick) : Kept w w' k := by
  rcases h with rfl | rfl
  · exact .refl _ _
  · exact .tick _ _

theorem kept_other (dbg : Bool) (fuel : Nat) (sn sn' : Sn) (hne : sn' ≠ sn) (c : Call) (w : World) :
    Kept w (c.exec dbg fuel worldBus sn' w).2 sn.idx := by
  have hidx : sn.idx ≠ sn'.idx := fun h => hne (idx_inj h.symm)
  exact closed_call (b := worldBus) (sn := sn')
    (closed_of_rel (W := OwnBlock sn') (fun s t => Kept s t sn.idx) (fun s => .refl s _) (fun s t u => .trans)
      (fun a blk n s => by rw [worldBus_read]; exact .tick _ _)
      (fun a blk bs s hW => by
        rw [worldBus_write]
        refine (Kept.tick s _).trans ?_
        have hb : blk.toNat = 4 * sn'.idx + 1 ∨ blk.toNat = 4 * sn'.idx + 2 ∨ blk.toNat = 4 * sn'.idx + 3 := by
          rcases hW with h | h | h
          · rw [h]; exact .inl (Sn.block_toNat sn')
          · rw [h]; exact .inr (.inl (Sn.txBlock_toNat sn'))
          · rw [h]; exact .inr (.inr (Sn.rxBlock_toNat sn'))
        have hs := writeBytes_sameSock sn'.idx sn.idx blk.toNat hidx hb bs s.tick.chip a.toNat
        refine ⟨fun _ _ h => hs.rxAt h, fun h => hs.txState h, by rw [hs.received]; exact List.prefix_rfl, ?_⟩
        exact filter_sock hidx (writeBytes_frame sn'.idx blk.toNat hb bs s.tick.chip a.toNat).2.2)) dbg fuel c w

/-- What a (possibly empty) transmission of the first `n` bytes of `buf` does, `n` being the smaller of
the length and the free space read at `w1`. -/
structure Transmit (w w1 w' : World) (sn : Sn) (buf : Bytes) (n : UInt16) : Prop where
  count : n.toNat = min buf.length (w1.chip.txFsr sn.idx)
  tx : TxState w'.chip sn.idx
  rx : ∀ base p, RxAt w.chip sn.idx base p → RxAt w'.chip sn.idx base p
  pre : w.chip.received sn.idx <+: w'.chip.received sn.idx
  sent : w'.chip.sent = w.chip.sent ++ (if n = 0 then [] else
        [⟨sn.idx, w.chip.destIp sn.idx, w.chip.destPort sn.idx, buf.take n.toNat⟩])

theorem sendBody_run (sn : Sn) (buf : Bytes) (w : World) (h : TxState w.chip sn.idx) :
    ∃ w' n, (do
      let freeSize ← worldBus.snTxFsr sn
      let txBytes := min16 (lenU16 buf.length) freeSize
      if txBytes ≠ 0 then do
        let ptr ← worldBus.snTxWr sn
        worldBus.setSnTxBuf sn ptr (buf.take txBytes.toNat)
        worldBus.setSnTxWr sn (ptr + txBytes)
        worldBus.setSnCr sn .send
        pure txBytes
      else pure txBytes : M World UInt16) w = (.ok n, w') ∧ Transmit w w.tick w' sn buf n := by
  have h1 := h.tick
  have k0 := Kept.tick w sn.idx
  have hf : (UInt16.ofNat (w.tick.chip.txFsr sn.idx)).toNat = w.tick.chip.txFsr sn.idx :=
    ofNat16_toNat (Mem.word_lt _ _ _)
  have hle := h1.fsr_le
  have hlt := dvd_le_half h1.size_dvd h1.size_lt
  have hm : (min16 (lenU16 buf.length) (UInt16.ofNat (w.tick.chip.txFsr sn.idx))).toNat
      = min buf.length (w.tick.chip.txFsr sn.idx) := by
    rw [min16_toNat, lenU16_toNat, hf]; omega
  rw [M.bind_ok (run_snTxFsr sn w)]
  by_cases hz : min16 (lenU16 buf.length) (UInt16.ofNat (w.tick.chip.txFsr sn.idx)) = 0
  · refine ⟨w.tick, 0, ?_, ?_, h1, fun b p h => k0.rx b p h, k0.pre, ?_⟩
    · show (if min16 (lenU16 buf.length) (UInt16.ofNat (w.tick.chip.txFsr sn.idx)) ≠ 0 then _ else _ : M World _) _ = _
      rw [if_neg (by simp [hz])]
      show (Except.ok _, _) = _
      rw [hz]
    · rw [← hm, hz]
    · rw [if_pos rfl, List.append_nil, tick_sent]
  · obtain ⟨w3, e3, h3⟩ := run_txTail (w := w.tick.tick) (sn := sn) h1.tick
      (buf.take (min16 (lenU16 buf.length) (UInt16.ofNat (w.tick.chip.txFsr sn.idx))).toNat)
      (min16 (lenU16 buf.length) (UInt16.ofNat (w.tick.chip.txFsr sn.idx)))
      (by rw [List.length_take, hm]; omega) (by rw [List.length_take, hm, tick_txSize]; omega)
    refine ⟨w3, _, ?_, hm, h3.tx, fun b p h => h3.rx b p (k0.rx b p h).tick,
      k0.pre.trans ((tick_received_prefix _ _).trans h3.pre), ?_⟩
    · show (if min16 (lenU16 buf.length) (UInt16.ofNat (w.tick.chip.txFsr sn.idx)) ≠ 0 then _ else _ : M World _) _ = _
      rw [if_pos hz, M.bind_ok (run_snTxWr sn w.tick)]
      rw [← bind_assoc] at e3
      show (worldBus.setSnTxBuf sn _ _ >>= fun _ => worldBus.setSnTxWr sn _ >>= fun _ =>
        worldBus.setSnCr sn .send >>= fun _ => pure _ : M World _) _ = _
      rw [← bind_assoc, M.bind2_ok e3]; rfl
    · rw [if_neg hz, h3.sent, tick_sent, tick_sent, tick_destIp, tick_destIp, tick_destPort, tick_destPort]

theorem Transmit.after {w w0 w1 w' : World} {sn : Sn} {buf : Bytes} {n : UInt16} (h : Transmit w0 w1 w' sn buf n)
    (h0 : w0 = w ∨ w0 = w.tick) : Transmit w w1 w' sn buf n := by
  rcases h0 with rfl | rfl
  · exact h
  · refine ⟨h.count, h.tx, fun b p hr => h.rx b p hr.tick, (tick_received_prefix _ _).trans h.pre, ?_⟩
    rw [h.sent, tick_sent, tick_destIp, tick_destPort]

/-- `tcp_write`. -/
theorem tcpWrite_run (dbg : Bool) (sn : Sn) (buf : Bytes) (w : World) (h : TxState w.chip sn.idx) :
    (∃ w', (w' = w ∨ w' = w.tick) ∧ dbg = true ∧ tcpWrite dbg worldBus sn buf w = (.error .panic, w')) ∨
    (∃ w1 w' n, (w1 = w.tick ∨ w1 = w.tick.tick) ∧ tcpWrite dbg worldBus sn buf w = (.ok n, w') ∧
      Transmit w w1 w' sn buf n) := by
  obtain ⟨w0, hw0, hd⟩ := run_debugAssert dbg _ w (run_notUdpInitMacraw sn w)
  rcases hd.symm with ⟨hdbg, hd⟩ | hd
  · left
    refine ⟨w0, hw0, hdbg, ?_⟩
    unfold tcpWrite; rw [M.bind_error hd]
  · right
    obtain ⟨w', n, e, ht⟩ := sendBody_run sn buf w0 ((Kept.of_or sn.idx hw0).tx h)
    refine ⟨w0.tick, w', n, by rcases hw0 with rfl | rfl <;> simp, ?_, ht.after hw0⟩
    unfold tcpWrite; rw [M.bind_ok hd]; exact e

/-- `udp_send`. -/
theorem udpSend_run (dbg : Bool) (sn : Sn) (buf : Bytes) (w : World) (h : TxState w.chip sn.idx) :
    (∃ w', (w' = w ∨ w' = w.tick) ∧ dbg = true ∧ udpSend dbg worldBus sn buf w = (.error .panic, w')) ∨
    (∃ w1 w' n, (w1 = w.tick ∨ w1 = w.tick.tick) ∧ udpSend dbg worldBus sn buf w = (.ok n, w') ∧
      Transmit w w1 w' sn buf n) := by
  obtain ⟨w0, hw0, hd⟩ := run_debugAssert dbg _ w (run_srIsUdp sn w)
  rcases hd.symm with ⟨hdbg, hd⟩ | hd
  · left
    refine ⟨w0, hw0, hdbg, ?_⟩
    unfold udpSend; rw [M.bind_error hd]
  · right
    obtain ⟨w', n, e, ht⟩ := sendBody_run sn buf w0 ((Kept.of_or sn.idx hw0).tx h)
    refine ⟨w0.tick, w', n, by rcases hw0 with rfl | rfl <;> simp, ?_, ht.after hw0⟩
    unfold udpSend; rw [M.bind_ok hd]; exact e

theorem setDest_same (c : Chip) (k : Nat) (a : SockAddr) (b x : Nat) (h : b ≠ 4 * k + 1 ∨ x < 0x0C ∨ 0x12 ≤ x) :
    (setDest c k a).mem b x = c.mem b x := by
  unfold setDest
  simp only
  rw [Mem.setWord_ne _ _ _ _ _ _ (by omega)]
  simp only [Mem.store]
  repeat rw [if_neg (by omega)]

theorem setDest_tx {c : Chip} {k : Nat} (a : SockAddr) (h : TxState c k) : TxState (setDest c k a) k := by
  have hs := fun b x h => setDest_same c k a b x h
  have e1 : (setDest c k a).txSize k = c.txSize k := by unfold Chip.txSize; rw [hs _ _ (by omega)]
  have e2 : (setDest c k a).txRd k = c.txRd k := by unfold Chip.txRd Mem.word; rw [hs _ _ (by omega), hs _ _ (by omega)]
  have e3 : (setDest c k a).txWr k = c.txWr k := by unfold Chip.txWr Mem.word; rw [hs _ _ (by omega), hs _ _ (by omega)]
  have e4 : (setDest c k a).txFsr k = c.txFsr k := by unfold Chip.txFsr Mem.word; rw [hs _ _ (by omega), hs _ _ (by omega)]
  exact ⟨by rw [e1]; exact h.size_dvd, by rw [e1]; exact h.size_lt, by rw [e2, e3]; exact h.idle,
    by rw [e1, e4]; exact h.fsr_le⟩

theorem setDest_rx {c : Chip} {k base p : Nat} (a : SockAddr) (h : RxAt c k base p) : RxAt (setDest c k a) k base p := by
  have hs := fun b x h => setDest_same c k a b x h
  refine ⟨(RxSame.of_mem (fun x _ => hs _ _ (by omega)) (fun x => hs _ _ (by omega)) rfl).rxOk h.rx, ?_⟩
  rw [← h.rd]; unfold Chip.rxRd Mem.word; rw [hs _ _ (by omega), hs _ _ (by omega)]

theorem setDest_ip (c : Chip) (k : Nat) (a : SockAddr) : (setDest c k a).destIp k = a.ip.octets := by
  unfold Chip.destIp setDest
  simp only [show List.range 4 = [0, 1, 2, 3] from rfl, List.map_cons, List.map_nil]
  rw [Mem.setWord_ne _ _ _ _ _ _ (by omega), Mem.setWord_ne _ _ _ _ _ _ (by omega),
    Mem.setWord_ne _ _ _ _ _ _ (by omega), Mem.setWord_ne _ _ _ _ _ _ (by omega)]
  simp [Mem.store, Ipv4.octets]

theorem setDest_port (c : Chip) (k : Nat) (a : SockAddr) : (setDest c k a).destPort k = a.port.toNat := by
  unfold Chip.destPort setDest
  simp only
  rw [Mem.word_setWord]
  have := u16_lt a.port
  omega

/-- `udp_send_if_free`. -/
theorem udpSendIfFree_run (dbg : Bool) (sn : Sn) (buf : Bytes) (w : World) (h : TxState w.chip sn.idx) :
    (∃ w', (w' = w ∨ w' = w.tick) ∧ dbg = true ∧ udpSendIfFree dbg worldBus sn buf w = (.error .panic, w')) ∨
    (∃ w0, (w0 = w ∨ w0 = w.tick) ∧
      ((buf.length > 65535 ∧ udpSendIfFree dbg worldBus sn buf w = (.ok 0, w0)) ∨
       (buf.length ≤ 65535 ∧ w0.tick.chip.txFsr sn.idx < buf.length ∧
          udpSendIfFree dbg worldBus sn buf w = (.ok (UInt16.ofNat buf.length), w0.tick)) ∨
       (buf.length ≤ w0.tick.chip.txFsr sn.idx ∧
          ∃ w', udpSendIfFree dbg worldBus sn buf w = (.ok (UInt16.ofNat buf.length), w') ∧
            w'.chip.sent = w.chip.sent ++ [⟨sn.idx, w.chip.destIp sn.idx, w.chip.destPort sn.idx, buf⟩] ∧
            TxState w'.chip sn.idx ∧ ∀ base p, RxAt w.chip sn.idx base p → RxAt w'.chip sn.idx base p))) := by
  obtain ⟨w0, hw0, hd⟩ := run_debugAssert dbg _ w (run_srIsUdp sn w)
  rcases hd.symm with ⟨hdbg, hd⟩ | hd
  · left
    refine ⟨w0, hw0, hdbg, ?_⟩
    unfold udpSendIfFree; rw [M.bind_error hd]
  · right
    have h0 := (Kept.of_or sn.idx hw0).tx h
    have h1 := h0.tick
    have hf : (UInt16.ofNat (w0.tick.chip.txFsr sn.idx)).toNat = w0.tick.chip.txFsr sn.idx :=
      ofNat16_toNat (Mem.word_lt _ _ _)
    have hle := h1.fsr_le
    have hlt := dvd_le_half h1.size_dvd h1.size_lt
    refine ⟨w0, hw0, ?_⟩
    unfold udpSendIfFree
    rw [M.bind_ok hd]
    by_cases hb : buf.length ≤ 65535
    · rw [if_pos hb, M.bind_ok (run_snTxFsr sn w0)]
      have hl : (UInt16.ofNat buf.length).toNat = buf.length := ofNat16_toNat (by omega)
      by_cases hfit : buf.length ≤ w0.tick.chip.txFsr sn.idx
      · right; right
        refine ⟨hfit, ?_⟩
        rw [if_pos (by rw [UInt16.le_iff_toNat_le, hl, hf]; exact hfit), M.bind_ok (run_snTxWr sn w0.tick)]
        obtain ⟨w3, e3, h3⟩ := run_txTail (w := w0.tick.tick) (sn := sn) h1.tick buf (UInt16.ofNat buf.length) hl
          (by rw [tick_txSize]; omega)
        refine ⟨w3, ?_, ?_, h3.tx, fun b p h => h3.rx b p ((Kept.of_or sn.idx hw0).rx b p h).tick.tick⟩
        · rw [← bind_assoc] at e3
          show (worldBus.setSnTxBuf sn _ _ >>= fun _ => worldBus.setSnTxWr sn _ >>= fun _ =>
            worldBus.setSnCr sn .send >>= fun _ => pure _ : M World _) _ = _
          rw [← bind_assoc, M.bind2_ok e3]; rfl
        · rw [h3.sent, tick_sent, tick_sent, tick_destIp, tick_destIp, tick_destPort, tick_destPort]
          rcases hw0 with rfl | rfl
          · rfl
          · rw [tick_sent, tick_destIp, tick_destPort]
      · right; left
        refine ⟨hb, by omega, ?_⟩
        rw [if_neg (by rw [UInt16.le_iff_toNat_le, hl, hf]; exact hfit)]; rfl
    · left
      refine ⟨by omega, ?_⟩
      rw [if_neg hb]; rfl

end Verif

namespace Verif
open Hl Spec

theorem prefix_drop {a b : Bytes} (h : a <+: b) (n : Nat) : a.drop n <+: b.drop n := by
  obtain ⟨t, rfl⟩ := h
  rw [List.drop_append]
  exact List.prefix_append _ _

/-- A program does not change the socket of its reader. -/
theorem prog_sn {σ α : Type} {b : Bus σ} (prog : RProg α) : ∀ (s : σ) (r : Ptrs),
    (prog.run (tcpReaderOps b) (s, r)).2.2.sn = r.sn := by
  induction prog with
  | ret x => intro s r; rfl
  | read n k ih =>
    intro s r
    refine (ih _ ((tcpReaderOps b).read n (s, r)).2.1 ((tcpReaderOps b).read n (s, r)).2.2).trans ?_
    simp only [tcpReaderOps, tcpReaderRead]
    by_cases hz : min16 r.remain (lenU16 n) ≠ 0
    · rw [if_pos hz, M.bind_run]
      rcases b.snRxBuf r.sn r.ptr (min16 r.remain (lenU16 n)).toNat s with ⟨e | x, s'⟩ <;> rfl
    · rw [if_neg hz]; rfl
  | readExact n k ih =>
    intro s r
    refine (ih _ ((tcpReaderOps b).readExact n (s, r)).2.1 ((tcpReaderOps b).readExact n (s, r)).2.2).trans ?_
    simp only [tcpReaderOps, tcpReaderReadExact]
    by_cases hz : min16 r.remain (lenU16 n) ≠ lenU16 n
    · rw [if_pos hz]; rfl
    · rw [if_neg hz, M.bind_run]
      rcases b.snRxBuf r.sn r.ptr n s with ⟨e | x, s'⟩ <;> rfl
  | seek pos k ih =>
    intro s r
    refine (ih _ ((tcpReaderOps b).seek pos (s, r)).2.1 ((tcpReaderOps b).seek pos (s, r)).2.2).trans ?_
    simp only [tcpReaderOps, Ptrs.seek]
    split
    · rename_i e
      split at e
      · simp at e
      · injection e with e; rw [← e]
    · rfl
  | rewind k ih => intro s r; exact ih s r.rewind
  | streamLen k ih => intro s r; exact ih _ s r
  | streamPosition k ih => intro s r; exact ih _ s r
  | remain k ih => intro s r; exact ih _ s r

/-- A program does not change the bytes under a cursor. -/
theorem prog_cursor_data {α : Type} (prog : RProg α) : ∀ c : Cursor, (prog.run cursorOps c).2.data = c.data := by
  induction prog with
  | ret x => intro c; rfl
  | read n k ih => intro c; exact ih _ _
  | readExact n k ih =>
    intro c
    refine (ih _ _).trans ?_
    simp only [cursorOps]; split <;> rfl
  | seek pos k ih =>
    intro c
    refine (ih _ _).trans ?_
    simp only [cursorOps]; split <;> rfl
  | rewind k ih => intro c; exact ih _
  | streamLen k ih => intro c; exact ih _ c
  | streamPosition k ih => intro c; exact ih _ c
  | remain k ih => intro c; exact ih _ c

end Verif

namespace Verif
open Hl Spec

/-- A program does not change the socket of its writer. -/
theorem wprog_sn {σ α : Type} {b : Bus σ} (prog : WProg α) : ∀ (s : σ) (r : Ptrs),
    (prog.run (writerOps b) (s, r)).2.2.sn = r.sn := by
  induction prog with
  | ret x => intro s r; rfl
  | write n k ih =>
    intro s r
    refine (ih _ ((writerOps b).write n (s, r)).2.1 ((writerOps b).write n (s, r)).2.2).trans ?_
    simp only [writerOps, writerWrite]
    by_cases hz : min16 r.remain (lenU16 n.length) ≠ 0
    · rw [if_pos hz, M.bind_run]
      rcases b.setSnTxBuf r.sn r.ptr (n.take (min16 r.remain (lenU16 n.length)).toNat) s with ⟨e | x, s'⟩ <;> rfl
    · rw [if_neg hz]; rfl
  | writeAll n k ih =>
    intro s r
    refine (ih _ ((writerOps b).writeAll n (s, r)).2.1 ((writerOps b).writeAll n (s, r)).2.2).trans ?_
    simp only [writerOps, writerWriteAll]
    by_cases hz : min16 r.remain (lenU16 n.length) ≠ lenU16 n.length
    · rw [if_pos hz]; rfl
    · rw [if_neg hz, M.bind_run]
      rcases b.setSnTxBuf r.sn r.ptr n s with ⟨e | x, s'⟩ <;> rfl
  | seek pos k ih =>
    intro s r
    refine (ih _ ((writerOps b).seek pos (s, r)).2.1 ((writerOps b).seek pos (s, r)).2.2).trans ?_
    simp only [writerOps, Ptrs.seek]
    split
    · rename_i e
      split at e
      · simp at e
      · injection e with e; rw [← e]
    · rfl
  | rewind k ih => intro s r; exact ih s r.rewind
  | streamLen k ih => intro s r; exact ih _ s r
  | streamPosition k ih => intro s r; exact ih _ s r
  | remain k ih => intro s r; exact ih _ s r

/-- A program does not change the size of an image. -/
theorem wprog_image_length {α : Type} (prog : WProg α) : ∀ i : Image, i.pos ≤ i.buf.length →
    (prog.run imageOps i).2.buf.length = i.buf.length ∧ (prog.run imageOps i).2.pos ≤ i.buf.length := by
  induction prog with
  | ret x => intro i h; exact ⟨rfl, h⟩
  | write n k ih =>
    intro i h
    have hl := put_length i (n.take (min (i.buf.length - i.pos) n.length)) (by rw [List.length_take]; omega)
    have := ih (imageOps.write n i).1 (i.put (n.take (min (i.buf.length - i.pos) n.length)))
      (by rw [hl]; simp only [Image.put, List.length_take]; omega)
    rw [hl] at this; exact this
  | writeAll n k ih =>
    intro i h
    by_cases hn : n.length ≤ i.buf.length - i.pos
    · have hl := put_length i n (by omega)
      have := ih (.ok ()) (i.put n) (by rw [hl]; simp only [Image.put]; omega)
      rw [hl] at this
      have e : imageOps.writeAll n i = (.ok (), i.put n) := by simp only [imageOps]; rw [if_pos hn]
      show (WProg.run imageOps (k (imageOps.writeAll n i).1) (imageOps.writeAll n i).2).2.buf.length = _ ∧
        (WProg.run imageOps (k (imageOps.writeAll n i).1) (imageOps.writeAll n i).2).2.pos ≤ _
      rw [e]; exact this
    · have e : imageOps.writeAll n i = (.error .outOfMemory, i) := by simp only [imageOps]; rw [if_neg hn]
      show (WProg.run imageOps (k (imageOps.writeAll n i).1) (imageOps.writeAll n i).2).2.buf.length = _ ∧
        (WProg.run imageOps (k (imageOps.writeAll n i).1) (imageOps.writeAll n i).2).2.pos ≤ _
      rw [e]; exact ih _ i h
  | seek pos k ih =>
    intro i h
    show (WProg.run imageOps (k (imageOps.seek pos i).1) (imageOps.seek pos i).2).2.buf.length = _ ∧
        (WProg.run imageOps (k (imageOps.seek pos i).1) (imageOps.seek pos i).2).2.pos ≤ _
    by_cases ht : 0 ≤ seekTarget i.buf.length i.pos pos ∧ seekTarget i.buf.length i.pos pos ≤ i.buf.length
    · have e : imageOps.seek pos i = (.ok (), { i with pos := (seekTarget i.buf.length i.pos pos).toNat }) := by
        simp only [imageOps]; rw [if_pos ht]
      rw [e]
      exact ih (.ok ()) { i with pos := (seekTarget i.buf.length i.pos pos).toNat } (by simp only; omega)
    · have e : imageOps.seek pos i = (.error .unexpectedEof, i) := by
        simp only [imageOps]; rw [if_neg ht]
      rw [e]; exact ih _ i h
  | rewind k ih => intro i h; exact ih { i with pos := 0 } (Nat.zero_le _)
  | streamLen k ih => intro i h; exact ih _ i h
  | streamPosition k ih => intro i h; exact ih _ i h
  | remain k ih => intro i h; exact ih _ i h

theorem RxAt.congr {c c' : Chip} {k base p : Nat}
    (h1 : ∀ a, a = 0x1E ∨ (0x26 ≤ a ∧ a ≤ 0x2B) → c'.mem (4 * k + 1) a = c.mem (4 * k + 1) a)
    (h2 : ∀ a, c'.mem (4 * k + 3) a = c.mem (4 * k + 3) a) (h3 : c'.received k = c.received k)
    (h : RxAt c k base p) : RxAt c' k base p :=
  ⟨(RxSame.of_mem (fun a ha => h1 a (by omega)) h2 h3).rxOk h.rx, by
    rw [← h.rd]; unfold Chip.rxRd Mem.word; rw [h1 _ (by omega), h1 _ (by omega)]⟩

/-- Setting the destination while a writer is in use. -/
theorem WrRel.setDest {w : World} {r : Ptrs} {i c0 a} (h : WrRel (w, r) i c0 a) (addr : SockAddr) :
    WrRel ({ w.tick with chip := Verif.setDest w.tick.chip r.sn.idx addr }, r) i (Verif.setDest c0 r.sn.idx addr) a := by
  have ht := h.tick
  have hs := fun b x h => setDest_same w.tick.chip r.sn.idx addr b x h
  have hc := fun b x h => setDest_same c0 r.sn.idx addr b x h
  have e1 : (Verif.setDest c0 r.sn.idx addr).txSize r.sn.idx = c0.txSize r.sn.idx := by
    unfold Chip.txSize; rw [hc _ _ (by omega)]
  constructor
  · simp only [e1]; exact h.dvd
  · simp only [e1]; exact h.size_lt
  · simp only [e1]; exact h.cap
  · exact h.pos
  · exact h.head
  · exact h.tail
  · exact h.ptr
  · simp only [e1]
    exact (ringRead_congr fun x => hs _ _ (by omega)).trans ht.data
  · simp only [e1]
    intro x hx
    rw [hs _ _ (by omega), hc _ _ (by omega)]
    exact ht.out x hx
  · intro b x h1 h2 h3
    by_cases hb : b = 4 * r.sn.idx + 1 ∧ 0x0C ≤ x ∧ x < 0x12
    · obtain ⟨rfl, h4, h5⟩ := hb
      have : x = 0x0C ∨ x = 0x0D ∨ x = 0x0E ∨ x = 0x0F ∨ x = 0x10 ∨ x = 0x11 := by omega
      rcases this with rfl | rfl | rfl | rfl | rfl | rfl <;>
        simp [Verif.setDest, Mem.setWord, Mem.store]
    · simp only
      rw [hs _ _ (by omega), hc _ _ (by omega)]
      exact ht.regs b x h1 h2 h3
  · exact ht.sent
  · simp only [e1]
    have : (Verif.setDest w.tick.chip r.sn.idx addr).txFsr r.sn.idx = w.tick.chip.txFsr r.sn.idx := by
      unfold Chip.txFsr Mem.word; rw [hs _ _ (by omega), hs _ _ (by omega)]
    rw [this]; exact ht.fsr
  · intro k base p hk
    have hk0 : RxAt c0 k base p := hk.congr (fun a ha => (hc _ _ (by omega)).symm) (fun a => (hc _ _ (by omega)).symm) rfl
    exact (ht.rx k base p hk0).congr (fun a ha => hs _ _ (by omega)) (fun a => hs _ _ (by omega)) rfl
  · exact ht.pre

end Verif
