import Verif.Proof.TlsHonest
import Verif.Proof.TxRoom
import Verif.Spec.TlsServer
/-!
# The steps of a handshake with an honest server
-/
namespace Verif.Tls
open Verif Hl
open _root_.Verif.Spec (World worldBus TxState RxState Queue Chip Mem HsMsg)
open _root_.Verif.Spec.Tls (HelloBody ExtensionsBody serverFinished plaintextHandshake Answer)

variable {x : Crypto}

/-- The answer is one the client can accept, with the public key `pub`, and not longer than the buffer of `n` bytes admits. -/
structure Honest (x : Crypto) (a : Answer) (pub : x.Public) (n : Nat) : Prop where
  hello : ∃ key, HelloBody a.hello key ∧ x.sec1 key = some pub
  extensions : ExtensionsBody a.extensions
  helloSize : a.sh.length ≤ n - 22
  extensionsSize : a.ee.length + 17 ≤ n - 22

/-- A client that has sent the ClientHello `ch`. -/
structure Offered (w : World) (c : Client x) (p : Nat) (psk : Bytes) (s : x.Secret) (ch : Bytes) : Prop where
  waits : Waits w c p
  state : c.state = .waitServerHello
  secret : c.ks.clientSecret = some s
  transcript : c.ks.transcript = ch
  derived : c.ks.secret = Spec.Tls.deriveSecret (Spec.Tls.earlySecret psk) "derived" []

/-- A client that has the keys of the handshake. -/
structure Keyed (w : World) (c : Client x) (p : Nat) (st : TState) (psk dhe : Bytes) (hellos messages : List Bytes) (seq : UInt64) : Prop where
  waits : Waits w c p
  state : c.state = st
  client : c.ks.clientTraffic = some (Spec.Tls.clientHandshakeTraffic psk dhe hellos)
  server : c.ks.serverTraffic = some (Spec.Tls.serverHandshakeTraffic psk dhe hellos)
  transcript : c.ks.transcript = messages.flatten
  derived : c.ks.secret = Spec.Tls.deriveSecret (Spec.Tls.handshakeSecret psk dhe) "derived" []
  readSeq : c.ks.readSeq = seq
  writeSeq : c.ks.writeSeq = 0

/-- What a call leaves alone. -/
structure Kept (w : World) (c : Client x) (w' : World) (c' : Client x) : Prop where
  sn : c'.sn = c.sn
  n : c'.rx.n = c.rx.n
  pre : w.chip.received c.sn.idx <+: w'.chip.received c.sn.idx
  peace : Peace c.sn.idx w → Peace c.sn.idx w'

theorem checkTimeout_fresh {σ : Type} (dbg : Bool) (secs : UInt32) (s : σ) (c : Client x) (h : c.timeout = some secs) :
    checkTimeout dbg secs (s, c) = (.ok (.callAfter 10), (s, c)) := by
  unfold checkTimeout
  rw [X.bind_ok (getC_run _)]
  have e : c.elapsedSecs dbg secs = .ok (some 0) := by
    unfold Client.elapsedSecs
    rw [h]
    dsimp only
    rw [if_neg (by rintro ⟨-, h⟩; exact absurd h (by rw [UInt32.lt_iff_toNat_lt]; omega)), UInt32.sub_self]
  dsimp only
  rw [e]
  rfl

theorem afterRecv_fresh (dbg : Bool) (secs : UInt32) (w : World) (c : Client x) (hs : c.state ≠ .sendFinished) (h : c.timeout = some secs) :
    afterRecv dbg worldBus secs (w, c) = (.ok (.callAfter 10), (w, c)) := by
  unfold afterRecv
  rw [X.bind_ok (getC_run _)]
  dsimp only
  rw [if_neg hs]
  exact checkTimeout_fresh dbg secs w c h

theorem HsMsg_length (m : HsMsg) : m.bytes.length = m.body.length + 4 := rfl

theorem step_hello (hx : x.Standard) (dbg : Bool) (fuel : Nat) (rng : Rng x) (secs : UInt32) {w : World} {c : Client x} {p : Nat} {psk ch : Bytes}
    {s : x.Secret} (h : Offered w c p psk s ch) (hi : Quiet w c) {a : Answer} {pub : x.Public} (ha : Honest x a pub c.rx.n)
    (hr : a.record1 <+: (w.chip.received c.sn.toU8.toNat).drop p) :
    (∃ s', dbg = true ∧ process dbg (fuel + 2) worldBus rng secs (w, c) = (.error (.stop .panic), s')) ∨
    ∃ w' c', process dbg (fuel + 2) worldBus rng secs (w, c) = (.ok (.callAfter 10), (w', c')) ∧ Kept w c w' c' ∧
      w'.chip.sent = w.chip.sent ∧ w.chip.txFsr c.sn.idx ≤ w'.chip.txFsr c.sn.idx ∧
      Keyed w' c' (p + a.record1.length) .waitEncryptedExtensions psk (x.dh s pub) [ch, a.sh] [ch, a.sh] 0 ∧ c'.timeout = some secs := by
  obtain ⟨key, hb, hp⟩ := ha.hello
  have hsz := h.waits.size
  have hl := ha.helloSize
  have hml : a.sh.length = a.hello.length + 4 := rfl
  rcases process_plain_message dbg fuel rng secs h.waits hi ⟨2, a.hello⟩ hr ha.helloSize
    (handled_serverHello hx secs h.state h.secret h.derived hb hp (by omega)) with ⟨w', hd, e⟩ | ⟨base, w1, rx2, hs, hrd, hpt, hn, e⟩
  · exact .inl ⟨_, hd, e⟩
  right
  refine ⟨w1, _, e.trans (afterRecv_fresh dbg secs _ _ (by show TState.waitEncryptedExtensions ≠ .sendFinished; simp) rfl), ?_, hs.sent, hs.free, ?_, rfl⟩
  · exact ⟨rfl, hn, hs.pre, hs.peace⟩
  · refine ⟨⟨rfl, by show 22 ≤ rx2.n ∧ rx2.n ≤ 32768; rw [hn]; exact hsz, hpt, RxAt.state ⟨hs.rx, hrd⟩, hs.tx⟩, rfl, ?_, ?_, ?_, rfl, rfl, rfl⟩
    · show some _ = _; rw [h.transcript]; rfl
    · show some _ = _; rw [h.transcript]; rfl
    · show c.ks.transcript ++ _ = _; rw [h.transcript]; simp [Answer.sh]

theorem step_extensions (hx : x.Standard) (dbg : Bool) (fuel : Nat) (rng : Rng x) (secs : UInt32) {w : World} {c : Client x} {p : Nat}
    {psk dhe ch : Bytes} {a : Answer} {pub : x.Public}
    (h : Keyed w c p .waitEncryptedExtensions psk dhe [ch, a.sh] [ch, a.sh] 0) (hi : Quiet w c) (ha : Honest x a pub c.rx.n)
    (hr : a.record2 psk dhe ch <+: (w.chip.received c.sn.toU8.toNat).drop p) :
    (∃ s', dbg = true ∧ process dbg (fuel + 2) worldBus rng secs (w, c) = (.error (.stop .panic), s')) ∨
    ∃ w' c', process dbg (fuel + 2) worldBus rng secs (w, c) = (.ok (.callAfter 10), (w', c')) ∧ Kept w c w' c' ∧
      w'.chip.sent = w.chip.sent ∧ w.chip.txFsr c.sn.idx ≤ w'.chip.txFsr c.sn.idx ∧
      Keyed w' c' (p + (a.record2 psk dhe ch).length) .waitFinished psk dhe [ch, a.sh] [ch, a.sh, a.ee] 1 ∧ c'.timeout = some secs := by
  have hsz := h.waits.size
  have hl := ha.extensionsSize
  have hml : a.ee.length = a.extensions.length + 4 := rfl
  have hseq : c.ks.readSeq.toNat = 0 := by rw [h.readSeq]; rfl
  have hpr : ∀ t m, Spec.Tls.protect t c.ks.readSeq.toNat 22 m = Spec.Tls.protect t 0 22 m := by intro t m; rw [hseq]
  rcases process_sealed_message hx dbg fuel rng secs h.waits hi ⟨8, a.extensions⟩ h.server (by rw [hseq]; decide) (by rw [hpr]; exact hr)
    ha.extensionsSize (handled_encryptedExtensions secs h.state ha.extensions (by omega)) (fun _ => rfl) with
    ⟨w', hd, e⟩ | ⟨base, w1, rx2, hs, hrd, hpt, hn, e⟩
  · exact .inl ⟨_, hd, e⟩
  right
  rw [hpr] at hs hrd
  refine ⟨w1, _, e.trans (afterRecv_fresh dbg secs _ _ (by show TState.waitFinished ≠ .sendFinished; simp) rfl), ?_, hs.sent, hs.free, ?_, rfl⟩
  · exact ⟨rfl, hn, hs.pre, hs.peace⟩
  · refine ⟨⟨rfl, by show 22 ≤ rx2.n ∧ rx2.n ≤ 32768; rw [hn]; exact hsz, hpt, RxAt.state ⟨hs.rx, hrd⟩, hs.tx⟩, rfl, h.client, h.server, ?_,
      h.derived, ?_, h.writeSeq⟩
    · show c.ks.transcript ++ _ = _; rw [h.transcript]; simp [Answer.ee]
    · show c.ks.readSeq + 1 = 1; rw [h.readSeq]; rfl

/-! ## The Finished of the client -/

theorem sendRecord_txOnly (hx : x.Standard) (w : World) (c : Client x) (t : Bytes) (ct : ContentType) (data : Bytes)
    (ht : c.ks.clientTraffic = some t) (hl : data.length + 17 < 65536) :
    TxOnly c.sn.idx w (sendRecord worldBus ct data (w, c)).2.1 := by
  obtain ⟨ps, -, h2⟩ := sendEncryptedRecord_protect hx t c.ks.writeSeq ct data hl
  have hk : c.ks.clientKeyAndNonce = some (KeySchedule.keyAndNonce x t c.ks.writeSeq) := by
    unfold KeySchedule.clientKeyAndNonce; rw [ht]; rfl
  have := txOnly_emitSend c.sn (piecesProg ps) w
  unfold sendRecord
  rw [X.bind_ok (getC_run (w, c))]
  dsimp only
  rw [hk, h2, sendPieces_eq]
  revert this
  unfold X.onFst X.ofM
  dsimp only
  rcases emitSend c.sn (piecesProg ps) w with ⟨e | y, w'⟩
  · cases e <;> exact id
  · exact id

/-- Sending a record takes no more room than its length. -/
theorem sendRecord_room (hx : x.Standard) (w : World) (c : Client x) (t : Bytes) (ct : ContentType) (data : Bytes) (htx : TxState w.chip c.sn.idx)
    (ht : c.ks.clientTraffic = some t) (hl : data.length + 17 < 65536) {w' : World} {c' : Client x} {out : Spec.Sent} {n : Nat}
    (e : sendRecord worldBus ct data (w, c) = (.ok (), (w', c'))) (hs : w'.chip.sent = w.chip.sent ++ [out]) (hn : out.payload.length ≤ n) :
    w.chip.txFsr c.sn.idx ≤ w'.chip.txFsr c.sn.idx + n := by
  obtain ⟨ps, -, h2⟩ := sendEncryptedRecord_protect hx t c.ks.writeSeq ct data hl
  have hk : c.ks.clientKeyAndNonce = some (KeySchedule.keyAndNonce x t c.ks.writeSeq) := by
    unfold KeySchedule.clientKeyAndNonce; rw [ht]; rfl
  have hr : emitSend c.sn (piecesProg ps) w = ((emitSend c.sn (piecesProg ps) w).1, w') := by
    have := congrArg (fun y => y.2.1) e
    unfold sendRecord at this
    rw [X.bind_ok (getC_run (w, c))] at this
    dsimp only at this
    rw [hk, h2, sendPieces_eq] at this
    rw [← this]
    unfold X.onFst X.ofM
    dsimp only
    rcases emitSend c.sn (piecesProg ps) w with ⟨e | y, w'⟩
    · cases e <;> rfl
    · rfl
  have := emitSend_room htx hr hs
  omega

theorem clientFinished_bytes (d : Bytes) (h : d.length = 32) : clientFinished d = (HsMsg.mk 20 d).bytes := by
  unfold clientFinished HsMsg.bytes
  rw [h]
  rfl

theorem verifyData_length (t : Bytes) (messages : List Bytes) : (Spec.Tls.verifyData t messages).length = 32 := hmac_length _ _

theorem sendClientFinished_run (hx : x.Standard) {w : World} {c : Client x} {psk dhe t : Bytes} (messages : List Bytes)
    (htx : TxState w.chip c.sn.idx) (ht : c.ks.clientTraffic = some t) (htr : c.ks.transcript = messages.flatten)
    (hd : c.ks.secret = Spec.Tls.deriveSecret (Spec.Tls.handshakeSecret psk dhe) "derived" []) (hf : 58 ≤ w.chip.txFsr c.sn.idx) :
    ∃ w', sendClientFinished worldBus (w, c) = (.ok (), (w', Client.setState .connected { c with ks := { c.ks with
        hkdf := Spec.Tls.masterSecret psk dhe
        clientTraffic := some (Spec.Tls.clientAppTraffic psk dhe messages)
        serverTraffic := some (Spec.Tls.serverAppTraffic psk dhe messages)
        secret := Spec.Tls.deriveSecret (Spec.Tls.masterSecret psk dhe) "derived" [], readSeq := 0, writeSeq := 0 } })) ∧
      TxState w'.chip c.sn.idx ∧ TxOnly c.sn.idx w w' ∧ w'.chip.sent = w.chip.sent ++ [⟨c.sn.idx, w.chip.destIp c.sn.idx, w.chip.destPort c.sn.idx,
        Spec.Tls.protect t c.ks.writeSeq.toNat 22 (HsMsg.mk 20 (Spec.Tls.verifyData t messages)).bytes⟩] ∧
      w.chip.txFsr c.sn.idx ≤ w'.chip.txFsr c.sn.idx + 58 := by
  have hv : c.ks.clientFinishedVerifyData = some (Spec.Tls.verifyData t messages) := by
    unfold KeySchedule.clientFinishedVerifyData
    rw [ht]
    exact congrArg some (finished_eq hx c.ks t messages htr)
  have hl := verifyData_length t messages
  have hb := clientFinished_bytes _ hl
  have hlen : (clientFinished (Spec.Tls.verifyData t messages)).length = 36 := by rw [hb, HsMsg_length]; exact congrArg (· + 4) hl
  have ho := sendRecord_txOnly hx w c t .handshake (clientFinished (Spec.Tls.verifyData t messages)) ht (by omega)
  rcases sendRecord_run hx w c t .handshake (clientFinished (Spec.Tls.verifyData t messages)) htx ht (by omega) with
    ⟨w', e1, e2, -, e4⟩ | ⟨w', -, -, e⟩
  · rw [e1] at ho
    refine ⟨w', ?_, e2, ho, by rw [e4, hb]; rfl, sendRecord_room hx w c t .handshake _ htx ht (by omega) e1 e4 (by rw [protect_length]; omega)⟩
    unfold sendClientFinished
    rw [X.bind_ok (getC_run _)]
    dsimp only
    rw [hv]
    show ((sendRecord worldBus .handshake (clientFinished (Spec.Tls.verifyData t messages))).mapErr mapW5500 >>= fun _ => _) (w, c) = _
    rw [X.bind_ok (X.mapErr_ok e1)]
    show (Except.ok (), _) = _
    dsimp only
    rw [master_run hx c.ks psk dhe messages hd htr]
  · omega

theorem afterRecv_finish (dbg : Bool) (secs : UInt32) {w w' : World} {c c' : Client x} (hs : c.state = .sendFinished)
    (h : sendClientFinished worldBus (w, c) = (.ok (), (w', c'))) :
    afterRecv dbg worldBus secs (w, c) = (.ok .handshakeFinished, (w', c')) := by
  unfold afterRecv
  rw [X.bind_ok (getC_run _)]
  dsimp only
  rw [if_pos hs, X.bind_ok (orFatal_ok h)]
  rfl

theorem step_finished (hx : x.Standard) (dbg : Bool) (fuel : Nat) (rng : Rng x) (secs : UInt32) {w : World} {c : Client x} {p : Nat}
    {psk dhe ch : Bytes} {a : Answer} (h : Keyed w c p .waitFinished psk dhe [ch, a.sh] [ch, a.sh, a.ee] 1) (hi : Quiet w c) (hn : 75 ≤ c.rx.n)
    (hr : a.record3 psk dhe ch <+: (w.chip.received c.sn.toU8.toNat).drop p) (hf : 58 ≤ w.chip.txFsr c.sn.toU8.toNat) :
    (∃ s', dbg = true ∧ process dbg (fuel + 2) worldBus rng secs (w, c) = (.error (.stop .panic), s')) ∨
    ∃ w' c', process dbg (fuel + 2) worldBus rng secs (w, c) = (.ok .handshakeFinished, (w', c')) ∧ Kept w c w' c' ∧
      w'.chip.sent.map (·.payload) = w.chip.sent.map (·.payload) ++ [a.reply psk dhe ch] ∧
      RxState w'.chip c.sn.idx (p + (a.record3 psk dhe ch).length) ∧ TxState w'.chip c.sn.idx ∧ c'.state = .connected ∧ Part c'.rx [] ∧
      c'.ks.transcript = [ch, a.sh, a.ee, a.fin psk dhe ch].flatten ∧
      c'.ks.clientTraffic = some (Spec.Tls.clientAppTraffic psk dhe [ch, a.sh, a.ee, a.fin psk dhe ch]) ∧
      c'.ks.serverTraffic = some (Spec.Tls.serverAppTraffic psk dhe [ch, a.sh, a.ee, a.fin psk dhe ch]) ∧
      c'.ks.readSeq = 0 ∧ c'.ks.writeSeq = 0 ∧ c'.timeout = none ∧ w.chip.txFsr c.sn.idx ≤ w'.chip.txFsr c.sn.idx + 58 := by
  have hsz := h.waits.size
  have hseq : c.ks.readSeq.toNat = 1 := by rw [h.readSeq]; rfl
  have hpr : ∀ t m, Spec.Tls.protect t c.ks.readSeq.toNat 22 m = Spec.Tls.protect t 1 22 m := by intro t m; rw [hseq]
  have hvl := verifyData_length (Spec.Tls.serverHandshakeTraffic psk dhe [ch, a.sh]) [ch, a.sh, a.ee]
  rcases process_sealed_message hx dbg fuel rng secs h.waits hi
    ⟨20, Spec.Tls.verifyData (Spec.Tls.serverHandshakeTraffic psk dhe [ch, a.sh]) [ch, a.sh, a.ee]⟩ h.server (by rw [hseq]; decide)
    (by rw [hpr]; exact hr) (by show (_ + 4) + 17 ≤ _; rw [hvl]; omega) (handled_finished hx secs [ch, a.sh, a.ee] h.state h.server h.transcript hvl) (fun _ => rfl) with
    ⟨w', hd, e⟩ | ⟨base, w1, rx2, hs, hrd, hpt, hn2, e⟩
  · exact .inl ⟨_, hd, e⟩
  right
  rw [hpr] at hs hrd
  generalize hc1 : (((fun rx => Client.setStateWithTimeout .sendFinished secs { c with rx }) rx2).withTranscript _).counted = c1 at e
  have k1 : c1.sn = c.sn := by rw [← hc1]; rfl
  have k2 : c1.state = .sendFinished := by rw [← hc1]; rfl
  have k3 : c1.rx = rx2 := by rw [← hc1]; rfl
  have k4 : c1.ks.transcript = [ch, a.sh, a.ee, a.fin psk dhe ch].flatten := by
    rw [← hc1]
    show c.ks.transcript ++ _ = _
    rw [h.transcript]
    simp [Answer.fin, serverFinished]
  have k5 : c1.ks.secret = Spec.Tls.deriveSecret (Spec.Tls.handshakeSecret psk dhe) "derived" [] := by rw [← hc1]; exact h.derived
  have k6 : c1.ks.clientTraffic = some (Spec.Tls.clientHandshakeTraffic psk dhe [ch, a.sh]) := by rw [← hc1]; exact h.client
  have k7 : c1.ks.writeSeq = 0 := by rw [← hc1]; exact h.writeSeq
  obtain ⟨w2, e2, e3, e4, e5, e6⟩ := sendClientFinished_run hx (w := w1) (c := c1) (psk := psk) (dhe := dhe) [ch, a.sh, a.ee, a.fin psk dhe ch]
    (by rw [k1]; exact hs.tx) k6 k4 k5 (by rw [k1]; exact Nat.le_trans hf hs.free)
  rw [k1] at e3 e4 e5 e6
  refine ⟨w2, _, e.trans (afterRecv_finish dbg secs k2 e2), ⟨k1, ?_, hs.pre.trans e4.pre, fun hp => e4.peace (hs.peace hp)⟩, ?_,
    (e4.rx _ _ ⟨hs.rx, hrd⟩).state, e3, rfl, ?_, k4, rfl, rfl, rfl, rfl, rfl, Nat.le_trans hs.free e6⟩
  · show c1.rx.n = _; rw [k3]; exact hn2
  · rw [e5, List.map_append, hs.sent, k7]; rfl
  · show Part c1.rx []; rw [k3]; exact hpt

end Verif.Tls
