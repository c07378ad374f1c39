import Verif.Proof.X
import Verif.Proof.Inplace
import Verif.Model.Tls.Client
import Verif.Spec.TlsRecord
import Verif.Thm.TlsGcm
import Verif.Thm.TlsKeys
import Verif.Thm.MqttOut
/-!
# The records the TLS client sends
-/
namespace Verif.Tls
open Verif Hl
open _root_.Verif.Spec (World worldBus TxState Sent Image imageOps Chip Mem)

variable {key : Block} {iv : Vector UInt8 12} {aad : Vector UInt8 5}

open Spec.Gcm in
/-- The loop over whole blocks only writes the ciphertext. -/
theorem writeChunks_run (k : Nat) : ∀ {C : Bytes} {g : Aes128Gcm} (data : Bytes), GInv key iv aad C C.length g → C.length % 16 = 0 →
    C.length / 16 + k ≤ 65534 → 16 * k ≤ data.length →
    ∃ ps g', ps.flatten = gctr (Spec.Gcm.aes fun i => key[i.val]) (counter (inc32 (J0 iv.toList)) (C.length / 16)) (data.take (16 * k)) ∧
      GInv key iv aad (C ++ ps.flatten) (C ++ ps.flatten).length g' ∧
      ∀ (σ : Type) (b : Bus σ) (r : Ptrs), writeChunks b k g r data = X.ofM (writePieces b r ps) >>= fun r => pure (g', r) := by
  induction k with
  | zero =>
    intro C g data h hC _ _
    refine ⟨[], g, by simp [gctr], by simpa using h, fun σ b r => rfl⟩
  | succ k ih =>
    intro C g data h hC hl hd
    obtain ⟨o, g1, h1, h2, h3⟩ := encryptBlock_run h hC (by omega) (toBlock (data.take 16))
    have ho : o.toList.length = 16 := Vector.length_toList
    have hlen : (C ++ o.toList).length = C.length + 16 := by rw [List.length_append, ho]
    obtain ⟨ps, g', h4, h5, h6⟩ := ih (data.drop 16) h2 (by rw [hlen]; omega) (by rw [hlen]; omega)
      (by rw [List.length_drop]; omega)
    have ht : (data.take 16).length = 16 := by rw [List.length_take]; omega
    have hb : (toBlock (data.take 16)).toList = data.take 16 := by
      rw [toBlock_toList _ (by omega), ht]; simp
    have e1 : data.take (16 * (k + 1)) = data.take 16 ++ (data.drop 16).take (16 * k) := by
      rw [show 16 * (k + 1) = 16 + 16 * k by omega, List.take_add]
    refine ⟨o.toList :: ps, g', ?_, ?_, ?_⟩
    · rw [List.flatten_cons, h4, hlen, h3, hb, e1, gctr_append _ _ _ _ (by rw [ht]), ht, ← counter_add,
        show (C.length + 16) / 16 = C.length / 16 + 16 / 16 by omega]
    · rw [List.flatten_cons, ← List.append_assoc]; exact h5
    · intro σ b r
      unfold writeChunks
      rw [h1, ofCipher_ok, pure_bind]
      simp only [h6]
      show _ = X.ofM (writerWriteAll b r o.toList >>= fun r => writePieces b r ps) >>= _
      rw [X.ofM_bind, bind_assoc]

/-- The bytes of a record that is sent in pieces. -/
theorem sendEncryptedRecord_eq (key : Block) (nonce : Vector UInt8 12) (ct : ContentType) (data : Bytes)
    (hl : data.length + 17 < 65536) :
    ∃ ps, ps.flatten = (RecordHeader.ser .applicationData (UInt16.ofNat (data.length + 16 + 1))).toList ++
        (Spec.Gcm.ae (Spec.Gcm.aes fun i => key[i.val]) nonce.toList
          (RecordHeader.ser .applicationData (UInt16.ofNat (data.length + 16 + 1))).toList (data ++ [ct.code])).1 ++
        (Spec.Gcm.ae (Spec.Gcm.aes fun i => key[i.val]) nonce.toList
          (RecordHeader.ser .applicationData (UInt16.ofNat (data.length + 16 + 1))).toList (data ++ [ct.code])).2 ∧
      ∀ (σ : Type) (b : Bus σ) (sn : Sn),
        sendEncryptedRecord b sn (some (key, nonce)) ct data = X.ofM (sendPieces b sn ps) := by
  generalize hh : RecordHeader.ser .applicationData (UInt16.ofNat (data.length + 16 + 1)) = header
  obtain ⟨ps, g1, h1, h2, h3⟩ := writeChunks_run (data.length / 16) data (new_inv key nonce header) rfl (by simp; omega) (by omega)
  rw [List.nil_append] at h2
  have hpl : ps.flatten.length = 16 * (data.length / 16) := by
    rw [h1, gctr_length, List.length_take]; omega
  have hrl : (data.drop (data.length / 16 * 16)).length = data.length % 16 := by rw [List.length_drop]; omega
  have hxl : (data.drop (data.length / 16 * 16) ++ [ct.code]).length = data.length % 16 + 1 := by
    rw [List.length_append, hrl]; rfl
  obtain ⟨o, g2, h4, h5, h6⟩ := encryptRemainder_run h2 (by rw [hpl]; omega) (by rw [hpl]; omega)
    (data.drop (data.length / 16 * 16) ++ [ct.code]) (by simp) (by rw [hxl]; omega)
  have hol : o.length = data.length % 16 + 1 := by rw [h6, gctr_length, hxl]
  have hC : ps.flatten ++ o = Spec.Gcm.crypt (Spec.Gcm.aes fun i => key[i.val]) nonce.toList (data ++ [ct.code]) := by
    have e : data ++ [ct.code] = data.take (16 * (data.length / 16)) ++ (data.drop (data.length / 16 * 16) ++ [ct.code]) := by
      rw [← List.append_assoc, Nat.mul_comm, List.take_append_drop]
    have htl : (data.take (16 * (data.length / 16))).length = 16 * (data.length / 16) := by rw [List.length_take]; omega
    unfold Spec.Gcm.crypt
    rw [e, gctr_append _ _ _ _ (by rw [htl]; omega), htl, h1, h6, hpl]
    rfl
  have hT := finish_run h5 (by rw [List.length_append, hpl, hol]; omega)
  refine ⟨header.toList :: ps ++ [o, g2.finish.toList], ?_, ?_⟩
  · unfold Spec.Gcm.ae
    dsimp only
    rw [← hC, ← hT]
    simp
  · intro σ b sn
    unfold sendEncryptedRecord sendPieces
    rw [if_neg (by omega)]
    simp only [hh, unwrapKey, pure_bind, h3, bind_assoc]
    rw [hxl] at h4
    simp only [hrl, h4, ofCipher_ok, pure_bind]
    have ht : (toBlock o).toList.take (data.length % 16 + 1) = o := by
      rw [← hol]; exact toBlock_take o (by omega)
    rw [ht]
    simp only [List.cons_append, writePieces, writePieces_append, X.ofM_bind, bind_assoc, bind_pure]

theorem u16_val (n : Nat) (hn : n < 65536) : [((UInt16.ofNat n) >>> 8).toUInt8, (UInt16.ofNat n).toUInt8] = Spec.Tls.u16 n :=
  toBe16_ofNat hn

theorem header_eq (n : Nat) (hn : n < 65536) :
    (RecordHeader.ser .applicationData (UInt16.ofNat n)).toList = Spec.Tls.protectedHeader n := by
  unfold Spec.Tls.protectedHeader
  rw [← u16_val n hn]
  rfl

theorem cipher_eq {x : Crypto} (hx : x.Standard) (traffic : Bytes) (seq : UInt64) :
    (fun i : Fin 16 => (KeySchedule.keyAndNonce x traffic seq).1[i.val]) = fun i => (Spec.Tls.trafficKey traffic).getD i.val 0 := by
  funext i
  rw [← (C79_key_and_nonce hx traffic seq).1]
  simp

/-- The pieces that `Client::send_encrypted_record` writes make up the protected record. -/
theorem sendEncryptedRecord_protect {x : Crypto} (hx : x.Standard) (traffic : Bytes) (seq : UInt64) (ct : ContentType) (data : Bytes)
    (hl : data.length + 17 < 65536) :
    ∃ ps, ps.flatten = Spec.Tls.protect traffic seq.toNat ct.code data ∧ ∀ (σ : Type) (b : Bus σ) (sn : Sn),
      sendEncryptedRecord b sn (some (KeySchedule.keyAndNonce x traffic seq)) ct data = X.ofM (sendPieces b sn ps) := by
  obtain ⟨ps, h1, h2⟩ := sendEncryptedRecord_eq (KeySchedule.keyAndNonce x traffic seq).1 (KeySchedule.keyAndNonce x traffic seq).2
    ct data hl
  refine ⟨ps, ?_, h2⟩
  rw [h1, cipher_eq hx, (C79_key_and_nonce hx traffic seq).2, header_eq _ (by omega),
    show data.length + 16 + 1 = data.length + 1 + 16 by omega]
  rfl

theorem u16_len (n : Nat) : (Spec.Tls.u16 n).length = 2 := rfl

/-- The program that writes some strings. -/
def piecesProg : List Bytes → WProg Unit
  | [] => pure ()
  | p :: ps => .doWriteAll p >>= fun _ => piecesProg ps

theorem piecesProg_emits (ps : List Bytes) : ∀ k, EmitsAt k (piecesProg ps) ps.flatten := by
  induction ps with
  | nil => intro k; exact EmitsAt.nil k
  | cons p ps ih => intro k; exact EmitsAt.bind (EmitsAt.writeAll k p) (ih _)

theorem onWriter_pieces {σ : Type} (b : Bus σ) (ps : List Bytes) : ∀ r : Ptrs,
    onWriter b r (piecesProg ps) = writePieces b r ps >>= fun r => pure ((), r) := by
  induction ps with
  | nil => intro r; rfl
  | cons p ps ih =>
    intro r
    funext s
    unfold writePieces
    rw [bind_assoc, M.bind_run]
    have e : (piecesProg (p :: ps)).run (writerOps b) (s, r)
        = match (writerOps b).writeAll p (s, r) with
          | (.ok _, t) => (piecesProg ps).run (writerOps b) t
          | (.error e, t) => (.error e, t) := by
      show (WProg.doWriteAll p >>= fun _ => piecesProg ps).run _ _ = _
      rcases h : (WProg.doWriteAll p).run (writerOps b) (s, r) with ⟨e | a, t⟩
      · rw [WProg.bind_error h]
        change (writerOps b).writeAll p (s, r) = _ at h
        rw [h]
      · rw [WProg.bind_ok h]
        change (writerOps b).writeAll p (s, r) = _ at h
        rw [h]
    have e2 : (writerOps b).writeAll p (s, r) = match writerWriteAll b r p s with
        | (.ok r', t) => (.ok (), (t, r'))
        | (.error e, t) => (.error e, (t, r)) := rfl
    unfold onWriter
    rw [e, e2]
    rcases h : writerWriteAll b r p s with ⟨e | r', t⟩
    · rfl
    · dsimp only
      rw [← ih r']
      rfl

theorem sendPieces_eq (sn : Sn) (ps : List Bytes) : sendPieces worldBus sn ps = emitSend sn (piecesProg ps) := by
  unfold sendPieces emitSend
  simp only [onWriter_pieces, bind_assoc, pure_bind]

/-- `SEND` leaves the size of the buffer alone. -/
theorem writerSend_txSize (r : Ptrs) (w w' : World) (e : writerSend worldBus r w = (.ok (), w')) (k : Nat) :
    w'.chip.txSize k = w.chip.txSize k := by
  unfold writerSend at e
  rw [M.bind_ok (run_setSnTxWr r.sn r.ptr w), run_setSnCr, command_send] at e
  injection e with _ e
  rw [← e]
  generalize hw1 : ({ w.tick with chip := w.tick.chip.setReg r.sn.idx 0x24 r.ptr.toNat } : World) = w1
  have e1 : (w1.tick.chip.cmdSend r.sn.idx).txSize k = w1.tick.chip.txSize k := by
    unfold Chip.txSize Chip.cmdSend Chip.setReg
    dsimp only
    rw [Mem.setWord_ne _ _ _ _ _ _ (by omega), Mem.setWord_ne _ _ _ _ _ _ (by omega)]
  show (w1.tick.chip.cmdSend r.sn.idx).txSize k = _
  rw [e1, tick_txSize, ← hw1]
  show (w.tick.chip.setReg _ _ _).txSize k = _
  rw [← tick_txSize w k]
  unfold Chip.txSize Chip.setReg
  dsimp only
  rw [Mem.setWord_ne _ _ _ _ _ _ (by omega)]

theorem emitSend_txSize {sn : Sn} {w w' : World} (h : TxState w.chip sn.idx) {p : WProg Unit}
    (e : emitSend sn p w = (.ok (), w')) : w'.chip.txSize sn.idx = w.chip.txSize sn.idx := by
  obtain ⟨r, img, e0, rsn, -, -, rel⟩ := run_socketWriter h
  unfold emitSend at e
  rw [M.bind_ok e0] at e
  have rel' := (wprog_sim p rel).2
  rcases hr : p.run (writerOps worldBus) (w.tick, r) with ⟨x, w1, r1⟩
  rw [hr] at rel'
  have ho : onWriter worldBus r p w.tick = (x.map fun a => (a, r1), w1) := by
    unfold onWriter; rw [hr]; cases x <;> rfl
  cases x with
  | error err => rw [M.bind_error ho] at e; simp at e
  | ok a =>
    rw [M.bind_ok ho] at e
    rw [writerSend_txSize _ _ _ e, ← tick_txSize w]
    have hsn : r1.sn = sn := by
      have := wprog_sn (b := worldBus) p w.tick r
      rw [hr] at this
      exact this.trans rsn
    have := rel'.txSize
    dsimp only at this
    rw [hsn] at this
    exact this

/-- A record of the client is transmitted whole, as one piece of data, or nothing is transmitted. -/
theorem sendRecord_run {x : Crypto} (hx : x.Standard) (w : World) (c : Client x) (t : Bytes) (ct : ContentType) (data : Bytes)
    (h : TxState w.chip c.sn.idx) (ht : c.ks.clientTraffic = some t) (hl : data.length + 17 < 65536) :
    (∃ w', sendRecord worldBus ct data (w, c) = (.ok (), (w', c)) ∧ TxState w'.chip c.sn.idx ∧
      w'.chip.txSize c.sn.idx = w.chip.txSize c.sn.idx ∧ w'.chip.sent = w.chip.sent ++
      [⟨c.sn.idx, w.chip.destIp c.sn.idx, w.chip.destPort c.sn.idx, Spec.Tls.protect t c.ks.writeSeq.toNat ct.code data⟩]) ∨
    (∃ w', sendRecord worldBus ct data (w, c) = (.error (.err .outOfMemory), (w', c)) ∧ w'.chip.sent = w.chip.sent ∧
      w.chip.txFsr c.sn.idx < data.length + 22) := by
  obtain ⟨ps, h1, h2⟩ := sendEncryptedRecord_protect hx t c.ks.writeSeq ct data hl
  have hk : c.ks.clientKeyAndNonce = some (KeySchedule.keyAndNonce x t c.ks.writeSeq) := by
    unfold KeySchedule.clientKeyAndNonce; rw [ht]; rfl
  have hlen : ps.flatten.length = data.length + 22 := by
    rw [h1]
    unfold Spec.Tls.protect Spec.Tls.protectedHeader Spec.Gcm.ae Spec.Gcm.crypt Spec.Gcm.tag
    simp only [List.length_append, gctr_length, u16_len, List.length_cons, List.length_nil]
    simp [Spec.Gcm.bytes]
    omega
  have hr : ∀ e w', emitSend c.sn (piecesProg ps) w = (e, w') →
      sendRecord worldBus ct data (w, c) = ((X.ofM (emitSend c.sn (piecesProg ps)) w).1, (w', c)) := by
    intro e w' he
    unfold sendRecord
    have : (getC : X Err (World × Client x) _) (w, c) = (.ok c, (w, c)) := rfl
    rw [X.bind_ok this, hk, h2, sendPieces_eq]
    apply X.onFst_run
    unfold X.ofM
    rw [he]
    cases e <;> rfl
  rcases emitSend_run' h (piecesProg_emits ps 0) with ⟨w', e1, e2, e3, e4⟩ | ⟨w', e1, e2, e3⟩
  · left
    refine ⟨w', ?_, e2, emitSend_txSize h e1, by rw [e4, h1]⟩
    rw [hr _ _ e1, X.ofM_ok e1]
  · right
    refine ⟨w', ?_, e2, by omega⟩
    rw [hr _ _ e1, X.ofM_error e1]
    rfl

theorem getC_run {ε σ : Type} {x : Crypto} (s : σ × Client x) : (getC : X ε (σ × Client x) _) s = (.ok s.2, s) := rfl

/-- Making a writer: there are 22 bytes of free space more than the writer can hold. -/
theorem tlsWriter_run {x : Crypto} (w : World) (c : Client x) (h : TxState w.chip c.sn.idx) (hc : c.connected = true) :
    if w.tick.chip.txFsr c.sn.idx < 22 then
      tlsWriter worldBus (w, c) = (.error (.err (.client (Alert.newWarning .internalError))), (w.tick, c))
    else ∃ r img, tlsWriter worldBus (w, c) = (.ok r, (w.tick.tick, c)) ∧ r.sn = c.sn ∧ img.pos = 0 ∧
      img.buf.length + 22 = w.tick.chip.txFsr c.sn.idx ∧
      WrRel (w.tick.tick, r) img w.tick.tick.chip (w.tick.tick.chip.txWr c.sn.idx + 5) := by
  have h2 := h.tick.tick
  have hf : (UInt16.ofNat (w.tick.chip.txFsr c.sn.idx)).toNat = w.tick.chip.txFsr c.sn.idx := ofNat16_toNat (Mem.word_lt _ _ _)
  have hw : (UInt16.ofNat (w.tick.tick.chip.txWr c.sn.idx)).toNat = w.tick.tick.chip.txWr c.sn.idx := ofNat16_toNat (Mem.word_lt _ _ _)
  have hge := tick_txFsr_ge h.tick
  have hle := h2.fsr_le
  have hlt := h2.size_lt
  have e1 : (writeErr (X.ofM (worldBus.snTxFsr c.sn))).onFst (w, c)
      = (.ok (UInt16.ofNat (w.tick.chip.txFsr c.sn.idx)), (w.tick, c)) :=
    X.onFst_run (X.mapErr_ok (X.ofM_ok (run_snTxFsr c.sn w))) c
  have e2 : (writeErr (X.ofM (worldBus.snTxWr c.sn))).onFst (w.tick, c)
      = (.ok (UInt16.ofNat (w.tick.tick.chip.txWr c.sn.idx)), (w.tick.tick, c)) :=
    X.onFst_run (X.mapErr_ok (X.ofM_ok (run_snTxWr c.sn w.tick))) c
  have eq : tlsWriter worldBus (w, c) = (if UInt16.ofNat (w.tick.chip.txFsr c.sn.idx) < 22 then
        X.throw (.client (Alert.newWarning .internalError))
      else
        (writeErr (X.ofM (worldBus.snTxWr c.sn))).onFst >>= fun wr =>
        pure { sn := c.sn, head := wr + 5, tail := wr + 5 + (UInt16.ofNat (w.tick.chip.txFsr c.sn.idx) - 22), ptr := wr + 5 }
        : X TErr (World × Client x) Ptrs) (w.tick, c) := by
    unfold tlsWriter
    rw [X.bind_ok (getC_run (w, c))]
    dsimp only
    rw [if_pos hc, X.bind_ok e1]
  have hcmp : (UInt16.ofNat (w.tick.chip.txFsr c.sn.idx) < 22) ↔ w.tick.chip.txFsr c.sn.idx < 22 := by
    rw [UInt16.lt_iff_toNat_lt, hf]; rfl
  split
  · rename_i hlt22
    rw [eq, if_pos (hcmp.mpr hlt22)]
    rfl
  · rename_i hge22
    have hnum : (UInt16.ofNat (w.tick.tick.chip.txWr c.sn.idx) + 5).toNat = (w.tick.tick.chip.txWr c.sn.idx + 5) % 65536 := by
      rw [UInt16.toNat_add, hw]; rfl
    have h22 : (UInt16.ofNat (w.tick.chip.txFsr c.sn.idx) - 22).toNat = w.tick.chip.txFsr c.sn.idx - 22 := by
      rw [u16_sub_toNat, hf]
      show (_ + 65536 - 22) % 65536 = _
      omega
    refine ⟨{ sn := c.sn, head := UInt16.ofNat (w.tick.tick.chip.txWr c.sn.idx) + 5
              tail := UInt16.ofNat (w.tick.tick.chip.txWr c.sn.idx) + 5 + (UInt16.ofNat (w.tick.chip.txFsr c.sn.idx) - 22)
              ptr := UInt16.ofNat (w.tick.tick.chip.txWr c.sn.idx) + 5 }, ⟨w.tick.tick.chip.mem.ringRead (4 * c.sn.idx + 2) (w.tick.tick.chip.txSize c.sn.idx) (w.tick.tick.chip.txWr c.sn.idx + 5)
      (w.tick.chip.txFsr c.sn.idx - 22), 0⟩, ?_, ?_, rfl, ?_, ?_⟩
    · rw [eq, if_neg (fun hh => hge22 (hcmp.mp hh)), X.bind_ok e2]
      rfl
    · rfl
    · dsimp only
      rw [Mem.ringRead_length]; omega
    · constructor
      · exact h2.size_dvd
      · exact h2.size_lt
      · simp only [Mem.ringRead_length]; omega
      · exact Nat.zero_le _
      · exact hnum
      · simp only [Mem.ringRead_length]
        rw [UInt16.toNat_add, hnum, h22]
        omega
      · rw [Nat.add_zero]; exact hnum
      · exact congrArg _ (Mem.ringRead_length _ _ _ _ _)
      · intro _ _; rfl
      · intro _ _ _ _ _; rfl
      · rfl
      · exact h2.fsr_le
      · intro _ _ _ h; exact h
      · intro k; exact List.prefix_rfl

theorem _root_.Verif.WrRel.txState {w : World} {r : Ptrs} {i : Image} {c0 : Chip} {a : Nat} (h : WrRel (w, r) i c0 a)
    (h0 : TxState c0 r.sn.idx) : TxState w.chip r.sn.idx := by
  have e := h.txSize
  have hg := h.regs
  simp only at e hg
  refine ⟨by rw [e]; exact h.dvd, by rw [e]; exact h.size_lt, ?_, by rw [e]; exact h.fsr⟩
  have e1 : w.chip.txRd r.sn.idx = c0.txRd r.sn.idx := by
    unfold Chip.txRd Mem.word
    rw [hg _ _ (by omega) (by omega) (by omega), hg _ _ (by omega) (by omega) (by omega)]
  have e2 : w.chip.txWr r.sn.idx = c0.txWr r.sn.idx := by
    unfold Chip.txWr Mem.word
    rw [hg _ _ (by omega) (by omega) (by omega), hg _ _ (by omega) (by omega) (by omega)]
  rw [e1, e2]; exact h0.idle

theorem _root_.Verif.WrRel.dest {w : World} {r : Ptrs} {i : Image} {c0 : Chip} {a : Nat} (h : WrRel (w, r) i c0 a) :
    w.chip.destIp r.sn.idx = c0.destIp r.sn.idx ∧ w.chip.destPort r.sn.idx = c0.destPort r.sn.idx := by
  have hg := h.regs
  simp only at hg
  constructor
  · exact destIp_congr fun x _ _ => hg _ _ (by omega) (by omega) (by omega)
  · unfold Chip.destPort Mem.word
    rw [hg _ _ (by omega) (by omega) (by omega), hg _ _ (by omega) (by omega) (by omega)]

/-- **C81, `Client::writer`.** On a connected client with the traffic secret `t` the writer accepts what fits in the free space less
22 bytes, as a writer on a string would, and transmits nothing; `send` then transmits exactly one record, the protected record of the
bytes written, with the current sequence number, and advances the sequence number. -/
theorem C81_writer {x : Crypto} (hx : x.Standard) (w : World) (c : Client x) (t : Bytes) (h : TxState w.chip c.sn.idx)
    (ht : c.ks.clientTraffic = some t) (hc : c.connected = true) (hseq : c.ks.writeSeq.toNat + 1 < 2 ^ 64) :
    (w.tick.chip.txFsr c.sn.idx < 22 ∧
      tlsWriter worldBus (w, c) = (.error (.err (.client (Alert.newWarning .internalError))), (w.tick, c))) ∨
    ∃ (r : Ptrs) (w1 : World) (img : Image), tlsWriter worldBus (w, c) = (.ok r, (w1, c)) ∧ img.pos = 0 ∧
      img.buf.length + 22 = w.tick.chip.txFsr c.sn.idx ∧ w1.chip.sent = w.chip.sent ∧
      ∀ {α : Type} (prog : WProg α),
        let real := prog.run (writerOps worldBus) (w1, r)
        let spec := prog.run imageOps img
        real.1 = spec.1 ∧ real.2.1.chip.sent = w.chip.sent ∧ TxState real.2.1.chip c.sn.idx ∧
        ∃ w2, tlsSend worldBus real.2.2 (real.2.1, c)
            = (.ok (), (w2, { c with ks := { c.ks with writeSeq := c.ks.writeSeq + 1 } })) ∧
          TxState w2.chip c.sn.idx ∧ w2.chip.sent = w.chip.sent ++ [⟨c.sn.idx, w.chip.destIp c.sn.idx, w.chip.destPort c.sn.idx,
            Spec.Tls.protect t c.ks.writeSeq.toNat ContentType.applicationData.code (spec.2.buf.take spec.2.pos)⟩] := by
  have hrun := tlsWriter_run w c h hc
  split at hrun
  · rename_i hlt; exact .inl ⟨hlt, hrun⟩
  · right
    obtain ⟨r, img, e1, e2, e3, e4, e5⟩ := hrun
    refine ⟨r, w.tick.tick, img, e1, e3, e4, (tick_sent _).trans (tick_sent _), ?_⟩
    intro α prog real spec
    obtain ⟨g1, g2⟩ := wprog_sim prog e5
    change real.1 = spec.1 at g1
    change WrRel real.2 spec.2 _ _ at g2
    have hs2 : real.2.2.sn = c.sn := (wprog_sn prog _ _).trans e2
    have hbuf : spec.2.buf.length = img.buf.length := (wprog_image_length prog img (by omega)).1
    generalize real = real at *
    generalize spec = spec at *
    obtain ⟨x1, w', r'⟩ := real
    obtain ⟨y1, i⟩ := spec
    dsimp only at *
    refine ⟨g1, g2.sent.trans ((tick_sent _).trans (tick_sent _)), hs2 ▸ g2.txState (hs2.symm ▸ h.tick.tick), ?_⟩
    have h2 := h.tick.tick
    have hge := tick_txFsr_ge h.tick
    have hle := h2.fsr_le
    have hwr : w.tick.tick.chip.txWr c.sn.idx = w.tick.tick.chip.txWr c.sn.idx % 65536 :=
      (Nat.mod_eq_of_lt (Mem.word_lt _ _ _)).symm
    obtain ⟨w2, f1, f2, f3⟩ := encryptRecordInplace_run g2 (by rw [hs2]; omega)
      (by rw [hs2, h2.idle]; exact hwr) (by rw [hs2]; exact hwr) (KeySchedule.keyAndNonce x t c.ks.writeSeq).1
      (KeySchedule.keyAndNonce x t c.ks.writeSeq).2 .applicationData
    have hsz := h2.size_lt
    have hsm := g2.small
    have hpos := g2.pos
    refine ⟨w2, ?_, by rw [← hs2]; exact f2, ?_⟩
    · have hk : c.ks.clientKeyAndNonce = some (KeySchedule.keyAndNonce x t c.ks.writeSeq) := by
        unfold KeySchedule.clientKeyAndNonce; rw [ht]; rfl
      have hi : c.ks.incrementWriteSeq = .ok { c.ks with writeSeq := c.ks.writeSeq + 1 } := by
        unfold KeySchedule.incrementWriteSeq; rw [if_pos hseq]
      have hw : tlsWriterSend worldBus r' (w', c.ks) = (.ok (), (w2, { c.ks with writeSeq := c.ks.writeSeq + 1 })) := by
        unfold tlsWriterSend
        rw [X.bind_ok (show (X.get : X Err (World × KeySchedule x) _) (w', c.ks) = (.ok (w', c.ks), (w', c.ks)) from rfl)]
        dsimp only
        rw [hk, show (unwrapKey (some (KeySchedule.keyAndNonce x t c.ks.writeSeq)) : X Err (World × KeySchedule x) _)
          = pure (KeySchedule.keyAndNonce x t c.ks.writeSeq) from rfl, pure_bind, X.bind_ok (X.onFst_run f1 c.ks), hi, ofCipher_ok,
          pure_bind]
        rfl
      unfold tlsSend
      dsimp only
      rw [hw]
    · have hdst : w.tick.tick.chip.destIp c.sn.idx = w.chip.destIp c.sn.idx ∧
          w.tick.tick.chip.destPort c.sn.idx = w.chip.destPort c.sn.idx := by
        rw [tick_destIp, tick_destIp, tick_destPort, tick_destPort]
        exact ⟨rfl, rfl⟩
      rw [f3, hs2, hdst.1, hdst.2, cipher_eq hx, (C79_key_and_nonce hx t c.ks.writeSeq).2, header_eq _ (by omega),
        (tick_sent _).trans (tick_sent _)]
      have hl : (i.buf.take i.pos).length = i.pos := by rw [List.length_take]; omega
      unfold Spec.Tls.protect
      rw [hl]
      rfl

/-- **C81, `Client::write_all`.** The data are transmitted as exactly one record, the protected record of the data with the current
sequence number, or nothing is transmitted and there was not enough room. -/
theorem C81_write_all {x : Crypto} (hx : x.Standard) (w : World) (c : Client x) (t : Bytes) (data : Bytes)
    (h : TxState w.chip c.sn.idx) (ht : c.ks.clientTraffic = some t) (hc : c.connected = true) (hl : data.length + 17 < 65536) :
    (∃ w', tlsWriteAll worldBus data (w, c) = (.ok (), (w', c)) ∧ TxState w'.chip c.sn.idx ∧
      w'.chip.txSize c.sn.idx = w.chip.txSize c.sn.idx ∧ w'.chip.sent = w.chip.sent ++
      [⟨c.sn.idx, w.chip.destIp c.sn.idx, w.chip.destPort c.sn.idx,
        Spec.Tls.protect t c.ks.writeSeq.toNat ContentType.applicationData.code data⟩]) ∨
    (∃ w', tlsWriteAll worldBus data (w, c) = (.error (.err (.client (Alert.newWarning .internalError))), (w', c)) ∧
      w'.chip.sent = w.chip.sent ∧ w.chip.txFsr c.sn.idx < data.length + 22) := by
  have e : tlsWriteAll worldBus data (w, c) = writeErr (sendRecord worldBus .applicationData data) (w, c) := by
    unfold tlsWriteAll
    rw [X.bind_ok (getC_run (w, c))]
    dsimp only
    rw [if_pos hc]
  rcases sendRecord_run hx w c t .applicationData data h ht hl with ⟨w', e1, e2, e3, e4⟩ | ⟨w', e1, e2, e3⟩
  · exact .inl ⟨w', by rw [e]; exact X.mapErr_ok e1, e2, e3, e4⟩
  · exact .inr ⟨w', by rw [e]; exact X.mapErr_error e1, e2, e3⟩

/-- Data on a client that is not connected, and data too long for a record: nothing is transmitted. -/
theorem C81_write_all_refused {x : Crypto} {σ : Type} (b : Bus σ) (s : σ) (c : Client x) (data : Bytes) :
    (c.connected = false → tlsWriteAll b data (s, c) = (.error (.err .notConnected), (s, c))) ∧
    (c.connected = true → 65536 ≤ data.length + 17 → tlsWriteAll b data (s, c) = (.error (.stop .panic), (s, c))) := by
  unfold tlsWriteAll
  rw [X.bind_ok (getC_run (s, c))]
  dsimp only
  constructor
  · intro hc
    rw [if_neg (by rw [hc]; decide)]
    rfl
  · intro hc hl
    rw [if_pos hc]
    have e : sendRecord b .applicationData data (s, c) = (.error (.stop .panic), (s, c)) := by
      unfold sendRecord
      rw [X.bind_ok (getC_run (s, c))]
      unfold sendEncryptedRecord
      rw [if_pos (show 65536 ≤ data.length + 16 + 1 by omega)]
      rfl
    exact X.mapErr_error e

/-! ## Nonces -/

/-- One use of `Client::writer`: write with some program, and send if it succeeded. -/
def useWriter {x : Crypto} (prog : WProg Unit) : X TErr (World × Client x) Unit := fun s =>
  match tlsWriter worldBus s with
  | (.error e, s) => (.error e, s)
  | (.ok r, (w, c)) =>
    match prog.run (writerOps worldBus) (w, r) with
    | (.error _, (w, _)) => (.ok (), (w, c))
    | (.ok _, (w, r)) => writeErr (tlsSend worldBus r) (w, c)

/-- The state after using a writer several times; errors are ignored. -/
def useWriters {x : Crypto} (s : World × Client x) (progs : List (WProg Unit)) : World × Client x :=
  progs.foldl (fun s p => (useWriter p s).2) s

theorem useWriter_run {x : Crypto} (hx : x.Standard) (w : World) (c : Client x) (t : Bytes) (prog : WProg Unit)
    (h : TxState w.chip c.sn.idx) (ht : c.ks.clientTraffic = some t) (hc : c.connected = true)
    (hseq : c.ks.writeSeq.toNat + 1 < 2 ^ 64) :
    ∃ w', TxState w'.chip c.sn.idx ∧
      (((useWriter prog (w, c)).2 = (w', c) ∧ w'.chip.sent = w.chip.sent) ∨
      ∃ data dst port, (useWriter prog (w, c)).2 = (w', { c with ks := { c.ks with writeSeq := c.ks.writeSeq + 1 } }) ∧
        w'.chip.sent = w.chip.sent ++
          [⟨c.sn.idx, dst, port, Spec.Tls.protect t c.ks.writeSeq.toNat ContentType.applicationData.code data⟩]) := by
  unfold useWriter
  rcases C81_writer hx w c t h ht hc hseq with ⟨-, e⟩ | ⟨r, w1, img, e, -, -, -, k⟩
  · rw [e]
    exact ⟨w.tick, h.tick, .inl ⟨rfl, tick_sent w⟩⟩
  · rw [e]
    dsimp only
    obtain ⟨k1, k2, k3, w2, k4, k5, k6⟩ := k prog
    rcases hp : prog.run (writerOps worldBus) (w1, r) with ⟨a | a, w', r'⟩
    · rw [hp] at k2 k3
      exact ⟨w', k3, .inl ⟨rfl, k2⟩⟩
    · rw [hp] at k4
      dsimp only at k4 ⊢
      refine ⟨w2, k5, .inr ⟨_, _, _, ?_, k6⟩⟩
      rw [show writeErr (tlsSend worldBus r') (w', c) = _ from X.mapErr_ok k4]

/-- **C52, part.** However often a connected client sends with `Client::writer`, whatever is written and whatever happens in between:
the records are protected with consecutive sequence numbers, and so no two of them have the same nonce. Missing: `Client::write_all`
and alerts, for which it is false, see `C52_write_all_reuses_the_nonce`. -/
theorem C52_writer_nonces_partial {x : Crypto} (hx : x.Standard) (t : Bytes) (progs : List (WProg Unit)) : ∀ (w : World) (c : Client x),
    TxState w.chip c.sn.idx → c.ks.clientTraffic = some t → c.connected = true → c.ks.writeSeq.toNat + progs.length < 2 ^ 64 →
    ∃ records : List (Nat × Bytes),
      (useWriters (w, c) progs).1.chip.sent.map (·.payload) = w.chip.sent.map (·.payload) ++
        records.map (fun r => Spec.Tls.protect t r.1 ContentType.applicationData.code r.2) ∧
      records.map (·.1) = List.range' c.ks.writeSeq.toNat records.length ∧
      (records.map fun r => Spec.Tls.recordNonce t r.1).Pairwise (· ≠ ·) := by
  have main : ∀ (progs : List (WProg Unit)) (w : World) (c : Client x),
      TxState w.chip c.sn.idx → c.ks.clientTraffic = some t → c.connected = true → c.ks.writeSeq.toNat + progs.length < 2 ^ 64 →
      ∃ records : List (Nat × Bytes), records.length ≤ progs.length ∧
        (useWriters (w, c) progs).1.chip.sent.map (·.payload) = w.chip.sent.map (·.payload) ++
          records.map (fun r => Spec.Tls.protect t r.1 ContentType.applicationData.code r.2) ∧
        records.map (·.1) = List.range' c.ks.writeSeq.toNat records.length := by
    intro progs
    induction progs with
    | nil =>
      intro w c _ _ _ _
      exact ⟨[], Nat.le_refl _, by simp [useWriters], rfl⟩
    | cons p ps ih =>
      intro w c h ht hc hseq
      rw [List.length_cons] at hseq
      obtain ⟨w', h', hr⟩ := useWriter_run hx w c t p h ht hc (by omega)
      rcases hr with ⟨e1, e2⟩ | ⟨data, dst, port, e1, e2⟩
      · obtain ⟨rs, r0, r1, r2⟩ := ih w' c h' ht hc (by omega)
        refine ⟨rs, by rw [List.length_cons]; omega, ?_, r2⟩
        unfold useWriters at r1 ⊢
        rw [List.foldl_cons, e1, r1, e2]
      · have hs : (c.ks.writeSeq + 1).toNat = c.ks.writeSeq.toNat + 1 := by
          rw [UInt64.toNat_add]
          show (_ + 1) % 2 ^ 64 = _
          omega
        obtain ⟨rs, r0, r1, r2⟩ := ih w' { c with ks := { c.ks with writeSeq := c.ks.writeSeq + 1 } } h' ht hc (by
          dsimp only; rw [hs]; omega)
        refine ⟨(c.ks.writeSeq.toNat, data) :: rs, by rw [List.length_cons, List.length_cons]; omega, ?_, ?_⟩
        · unfold useWriters at r1 ⊢
          rw [List.foldl_cons, e1, r1, e2]
          simp
        · rw [List.map_cons, r2, List.length_cons, List.range'_succ]
          dsimp only
          rw [hs]
  intro w c h ht hc hseq
  obtain ⟨rs, r0, r1, r2⟩ := main progs w c h ht hc hseq
  refine ⟨rs, r1, r2, ?_⟩
  have e : (rs.map fun r => Spec.Tls.recordNonce t r.1) = (List.range' c.ks.writeSeq.toNat rs.length).map (Spec.Tls.recordNonce t) := by
    rw [← r2, List.map_map]; rfl
  rw [e, List.pairwise_map]
  have hn : (List.range' c.ks.writeSeq.toNat rs.length).Pairwise (· ≠ ·) := List.nodup_range'
  refine hn.imp_of_mem ?_
  intro a b ha hb hne heq
  rw [List.mem_range'_1] at ha hb
  exact hne (C79_nonces_differ t a b (by omega) (by omega) heq)

/-- When all data are acknowledged the transmit buffer is free. -/
theorem txState_free {c : Chip} {k : Nat} (h : TxState c k) :
    TxState (c.envStep (.free k (c.txSize k))) k ∧ (c.envStep (.free k (c.txSize k))).txFsr k = c.txSize k ∧
    (c.envStep (.free k (c.txSize k))).sent = c.sent := by
  have e : (c.envStep (.free k (c.txSize k))).txFsr k = c.txSize k := by
    show (c.setReg k 0x20 _).mem.word _ _ = _
    rw [setReg_word]
    have := h.size_lt
    omega
  have hs : (c.envStep (.free k (c.txSize k))).txSize k = c.txSize k := by
    unfold Chip.txSize; rw [envStep_frame _ _ _ _ (by omega) (by omega)]
  refine ⟨⟨by rw [hs]; exact h.size_dvd, by rw [hs]; exact h.size_lt, ?_, by rw [hs, e]⟩, e,
    envStep_sent _ _⟩
  have e1 : (c.envStep (.free k (c.txSize k))).txRd k = c.txRd k := by
    unfold Chip.txRd Mem.word
    rw [envStep_frame _ _ _ _ (by omega) (by omega), envStep_frame _ _ _ _ (by omega) (by omega)]
  have e2 : (c.envStep (.free k (c.txSize k))).txWr k = c.txWr k := by
    unfold Chip.txWr Mem.word
    rw [envStep_frame _ _ _ _ (by omega) (by omega), envStep_frame _ _ _ _ (by omega) (by omega)]
  rw [e1, e2]; exact h.idle

/-- Encryptions with the same nonce reveal the difference of the plaintexts. -/
theorem crypt_xor (E : Nat → Nat) (iv P Q : Bytes) :
    List.zipWith (· ^^^ ·) (Spec.Gcm.crypt E iv P) (Spec.Gcm.crypt E iv Q) = List.zipWith (· ^^^ ·) P Q := by
  apply List.ext_getElem
  · simp [Spec.Gcm.crypt, gctr_length]
  · intro i h1 h2
    simp only [List.getElem_zipWith, Spec.Gcm.crypt, Spec.Gcm.gctr, List.getElem_mapIdx]
    generalize (Spec.Gcm.bytes _).getD _ 0 = k
    rw [UInt8.xor_assoc, UInt8.xor_comm k, UInt8.xor_assoc, UInt8.xor_self, UInt8.xor_zero]

theorem crypt_length (E : Nat → Nat) (iv P : Bytes) : (Spec.Gcm.crypt E iv P).length = P.length := by
  simp [Spec.Gcm.crypt, gctr_length]

/-- **C52 is false.** Two calls of `Client::write_all` on a connected client use the same key and the same nonce, for all data that fit
and however the client became connected: the second record is protected with the same sequence number, and the difference of the two
plaintexts can be computed from the two records. (Between the calls the peer acknowledges the first record, to make room.) -/
theorem C52_write_all_reuses_the_nonce {x : Crypto} (hx : x.Standard) (w : World) (c : Client x) (t a b : Bytes)
    (h : TxState w.chip c.sn.idx) (ht : c.ks.clientTraffic = some t) (hc : c.connected = true)
    (ha : a.length + 22 ≤ w.chip.txFsr c.sn.idx) (hb : b.length + 22 ≤ w.chip.txSize c.sn.idx) :
    let n := c.ks.writeSeq.toNat
    let type := ContentType.applicationData.code
    ∃ w1 w2, tlsWriteAll worldBus a (w, c) = (.ok (), (w1, c)) ∧
      tlsWriteAll worldBus b ({ w1 with chip := w1.chip.envStep (.free c.sn.idx (w1.chip.txSize c.sn.idx)) }, c) = (.ok (), (w2, c)) ∧
      w2.chip.sent.map (·.payload)
        = w.chip.sent.map (·.payload) ++ [Spec.Tls.protect t n type a, Spec.Tls.protect t n type b] ∧
      (List.zipWith (· ^^^ ·) ((Spec.Tls.protect t n type a).drop 5) ((Spec.Tls.protect t n type b).drop 5)).take
        (min a.length b.length) = List.zipWith (· ^^^ ·) a b := by
  intro n type
  have hsz := h.size_lt
  have hfl := h.fsr_le
  rcases C81_write_all hx w c t a h ht hc (by omega) with ⟨w1, e1, e2, e3, e4⟩ | ⟨_, _, _, e⟩
  · obtain ⟨f1, f2, f3⟩ := txState_free e2
    rcases C81_write_all hx { w1 with chip := w1.chip.envStep (.free c.sn.idx (w1.chip.txSize c.sn.idx)) } c t b f1 ht hc
      (by omega) with ⟨w2, g1, -, -, g4⟩ | ⟨_, _, _, e⟩
    · refine ⟨w1, w2, e1, g1, ?_, ?_⟩
      · rw [g4, f3, e4]
        simp [n, type]
      · have hd : ∀ d : Bytes, (Spec.Tls.protect t n type d).drop 5
            = Spec.Gcm.crypt (Spec.Tls.recordCipher t) (Spec.Tls.recordNonce t n) (d ++ [type]) ++
              Spec.Gcm.tag (Spec.Tls.recordCipher t) (Spec.Tls.recordNonce t n) (Spec.Tls.protectedHeader (d.length + 1 + 16))
                (Spec.Gcm.crypt (Spec.Tls.recordCipher t) (Spec.Tls.recordNonce t n) (d ++ [type])) := by
          intro d
          unfold Spec.Tls.protect Spec.Gcm.ae
          dsimp only
          rw [List.append_assoc, List.drop_left' (by simp [Spec.Tls.protectedHeader, u16_len])]
        rw [hd, hd, List.take_zipWith, List.take_append_of_le_length (by rw [crypt_length, List.length_append]; omega),
          List.take_append_of_le_length (by rw [crypt_length, List.length_append]; omega), ← List.take_zipWith, crypt_xor,
          List.take_zipWith, List.take_append_of_le_length (by omega), List.take_append_of_le_length (by omega),
          ← List.take_zipWith]
        exact List.take_of_length_le (by rw [List.length_zipWith])
    · exfalso
      dsimp only at e
      rw [f2] at e
      omega
  · omega

/-! ## A case

A connected client with a traffic secret, whose socket has an empty transmit buffer of 2 KiB. -/

/-- A connected client. -/
def sampleClient (x : Crypto) : Client x :=
  { Client.new x .sn3 4433 [104] ⟨⟨10, 0, 0, 1⟩, 443⟩ [105] [5] (List.replicate 2048 0) with
    state := .connected, ks := { KeySchedule.default x with clientTraffic := some Sample.client } }

example : TxState (Thm.tcpWorld 0 []).chip (sampleClient x).sn.idx ∧ (sampleClient x).ks.clientTraffic = some Sample.client ∧
    (sampleClient x).connected = true ∧ 2048 = (Thm.tcpWorld 0 []).chip.txFsr (sampleClient x).sn.idx :=
  ⟨(show TxState (Thm.tcpWorld 0 []).chip 3 from ⟨by decide +kernel, by decide +kernel, by decide +kernel, by decide +kernel⟩),
    rfl, rfl, (show 2048 = (Thm.tcpWorld 0 []).chip.txFsr 3 from by decide +kernel)⟩

example {x : Crypto} (hx : x.Standard) : ∃ w', tlsWriteAll worldBus [1, 2, 3] (Thm.tcpWorld 0 [], sampleClient x) = (.ok (), (w', sampleClient x)) := by
  rcases C81_write_all hx (Thm.tcpWorld 0 []) (sampleClient x) Sample.client [1, 2, 3]
    (show TxState (Thm.tcpWorld 0 []).chip 3 from ⟨by decide +kernel, by decide +kernel, by decide +kernel, by decide +kernel⟩)
    rfl rfl (by decide) with ⟨w', e, -⟩ | ⟨_, _, _, e⟩
  · exact ⟨w', e⟩
  · exact absurd e (show ¬(Thm.tcpWorld 0 []).chip.txFsr 3 < 3 + 22 from by decide +kernel)

end Verif.Tls
