import Verif.Model.MqttTls
import Verif.Thm.TlsReceive
import Verif.Thm.MqttIn
/-!
# Lemmas about the MQTT client over TLS
-/
namespace Verif.Tls
open _root_.Verif.Spec (Queue Cursor cursorOps)

theorem QRel.no_reader {b : Buffer} {q : Queue} (h : QRel b q) (c : q.app = []) : b.appDataReader = .error .wouldBlock := by
  unfold Buffer.appDataReader
  rw [if_pos (by rw [h.adTail, c]; simpa using Nat.mod_eq_of_lt h.head)]

theorem QRel.reader {b : Buffer} {q : Queue} (h : QRel b q) (c : q.app ≠ []) :
    ∃ r, b.appDataReader = .ok r ∧ TRel r ⟨q.app, 0⟩ ∧ r.head = b.head ∧ r.wrap = b.n := by
  have := h.small; have := h.cap; have h2 := h.head; have := h.size
  have hs0 : q.size = q.app.length + q.pending.length := rfl
  have ha := h.adTail
  have hpos : 0 < q.app.length := List.length_pos_iff.mpr c
  have ha' := ha
  rw [mod_wrap (by omega)] at ha'
  have hd := h.data
  rw [hs0, ring_append] at hd
  obtain ⟨d1, d2⟩ := List.append_inj hd (by simp)
  obtain ⟨s1, s2⟩ := asSlices_ring (buf := b.buf) (h := b.head) (k := q.app.length) h2 hpos (by omega)
  rw [← ha] at s1 s2
  refine ⟨⟨CircleReader.new (asSlices b.buf b.adTail b.head).1 (asSlices b.buf b.adTail b.head).2, b.head, b.buf.length⟩, ?_, ?_, rfl, rfl⟩
  · unfold Buffer.appDataReader
    rw [if_neg (by split at ha' <;> omega)]; rfl
  · refine ⟨?_, rfl, Nat.zero_le _, by simp only; omega⟩
    rw [← d1]; exact s1

theorem QRel.done {b : Buffer} {q : Queue} (h : QRel b q) {r : TlsReader} {pos : Nat} (hr : TRel r ⟨q.app, pos⟩) (hh : r.head = b.head)
    (hw : r.wrap = b.n) : QRel { b with head := r.done } { q with app := q.app.drop pos } := by
  have hsm := h.small; have h1 := h.cap; have h2 := h.head; have h3 := h.size; have h4 := h.tail
  have hs0 : q.size = q.app.length + q.pending.length := rfl
  have ha := h.adTail
  have y1 := CRel.ptr hr
  have y2 := CRel.pos hr
  simp only at y1 y2
  have hdone : r.done = (b.head + pos) % b.buf.length := by
    rw [TlsReader.done, hh, hw, y1]; rfl
  have hsz : Queue.size { q with app := q.app.drop pos } = q.size - pos := by
    simp [Queue.size]; omega
  constructor
  · exact hsm
  · exact h1
  · simp only; rw [hdone]; exact Nat.mod_lt _ (by omega)
  · simp only [List.length_drop]
    rw [hdone, Nat.mod_add_mod, ha]; congr 1; omega
  · rw [hsz]; simp only
    rw [hdone, Nat.mod_add_mod, h4]; congr 1; omega
  · rw [hsz]; simp only; omega
  · rw [hsz]; simp only
    rw [hdone]
    have := h.data
    have hq : q.size = pos + (q.size - pos) := by omega
    rw [hq, ring_append] at this
    have t := congrArg (List.drop pos) this
    rw [List.drop_append_of_le_length (by simp), List.drop_of_length_le (by simp), List.nil_append,
      List.drop_append_of_le_length y2] at t
    exact t

theorem QRel.app_small {b : Buffer} {q : Queue} (h : QRel b q) : q.app.length ≤ 32767 := by
  have := h.small; have := h.cap; have := h.size
  have hs0 : q.size = q.app.length + q.pending.length := rfl
  omega

end Verif.Tls

namespace Verif.MqttTls
open Verif Hl
open _root_.Verif.Spec (World worldBus TxState RxState Queue Chip Mem Image imageOps Sent Cursor cursorOps)
open Verif.Tls (X Crypto TErr TEvent Rng TlsReader Fail Alert tlsWriter tlsSend)
open Verif.Mqtt (State MErr RecvOut PubInfo)

variable {σ : Type} {x : Crypto}

theorem getC_run {ε : Type} (s : σ × Client x) : (getC : X ε (σ × Client x) _) s = (.ok s.2, s) := rfl

theorem modC_run {ε : Type} (f : Client x → Client x) (s : σ × Client x) : (modC f : X ε (σ × Client x) _) s = (.ok (), (s.1, f s.2)) := rfl

theorem onTls_ok {ε α : Type} {f : Fail ε → Fail Error} {m : X ε (σ × Tls.Client x) α} {s : σ} {c : Client x} {a : α} {s' : σ}
    {t : Tls.Client x} (h : m (s, c.tls) = (.ok a, (s', t))) : onTls f m (s, c) = (.ok a, (s', { c with tls := t })) := by
  unfold onTls; dsimp only; rw [h]

theorem onTls_error {ε α : Type} {f : Fail ε → Fail Error} {m : X ε (σ × Tls.Client x) α} {s : σ} {c : Client x} {e : Fail ε} {s' : σ}
    {t : Tls.Client x} (h : m (s, c.tls) = (.error e, (s', t))) : onTls f m (s, c) = (.error (f e), (s', { c with tls := t })) := by
  unfold onTls; dsimp only; rw [h]

/-- After one more record. -/
def next (c : Client x) : Client x :=
  { c with tls := { c.tls with ks := { c.tls.ks with writeSeq := c.tls.ks.writeSeq + 1 } } }

/-- Making a writer and sending a packet with it. -/
theorem packet_run (hx : x.Standard) {w : World} {c : Client x} {t : Bytes} (h : TxState w.chip c.tls.sn.idx)
    (ht : c.tls.ks.clientTraffic = some t) (hc : c.tls.connected = true) (hseq : c.tls.ks.writeSeq.toNat + 1 < 2 ^ 64)
    {p : WProg Unit} {bs : Bytes} (hp : EmitsAt 0 p bs) :
    (w.tick.chip.txFsr c.tls.sn.idx < 22 ∧
      onTls mapWriterErr (tlsWriter worldBus) (w, c) = (.error (.err (.clientAlert (Alert.newWarning .internalError))), (w.tick, c))) ∨
    ∃ r w1, onTls mapWriterErr (tlsWriter worldBus) (w, c) = (.ok r, (w1, c)) ∧ w1.chip.sent = w.chip.sent ∧
      ∃ w2, (onTls mapW5500 (sendPacket worldBus r p) (w1, c) = (.ok (), (w2, next c)) ∧ TxState w2.chip c.tls.sn.idx ∧
          bs.length + 22 ≤ w.chip.txSize c.tls.sn.idx ∧
          w2.chip.sent = w.chip.sent ++ [⟨c.tls.sn.idx, w.chip.destIp c.tls.sn.idx, w.chip.destPort c.tls.sn.idx,
            Spec.Tls.protect t c.tls.ks.writeSeq.toNat 23 bs⟩]) ∨
        (onTls mapW5500 (sendPacket worldBus r p) (w1, c) = (.error (.err (.mqtt .outOfMemory)), (w2, c)) ∧ w2.chip.sent = w.chip.sent ∧
          w.chip.txFsr c.tls.sn.idx < bs.length + 22) := by
  rcases Tls.C81_writer hx w c.tls t h ht hc hseq with ⟨h1, h2⟩ | ⟨r, w1, img, e1, e2, e3, e4, e5⟩
  · exact .inl ⟨h1, onTls_error h2⟩
  right
  refine ⟨r, w1, onTls_ok e1, e4, ?_⟩
  have hfit : w.chip.txFsr c.tls.sn.idx ≤ w.tick.chip.txFsr c.tls.sn.idx := tick_txFsr_ge h
  have hw : Written img img.buf.length [] := ⟨rfl, e2, by rw [e2]; exact Nat.zero_le _, by rw [e2]; rfl⟩
  obtain ⟨p1, p2⟩ := hp img.buf.length img [] rfl hw
  have := e5 p
  dsimp only at this
  obtain ⟨g1, g2, g3, w2, g4, g5, g6⟩ := this
  generalize hreal : p.run (writerOps worldBus) (w1, r) = real at g1 g2 g3 g4
  obtain ⟨o, w1', r1⟩ := real
  dsimp only at g1 g2 g3 g4
  have hon : onWriter worldBus r p w1 = (o.map fun a => (a, r1), w1') := by
    unfold onWriter; rw [hreal]; cases o <;> rfl
  by_cases hl : 0 + bs.length ≤ img.buf.length
  · obtain ⟨i, f1, f2⟩ := p1 hl
    rw [f1] at g1 g6
    dsimp only at g1 g6
    subst g1
    refine ⟨w2, .inl ⟨?_, g5, ?_, ?_⟩⟩
    · apply onTls_ok
      unfold sendPacket
      rw [X.bind_ok (X.onFst_run (X.ofM_ok hon) c.tls)]
      exact g4
    · have := h.tick.fsr_le
      rw [tick_txSize] at this
      omega
    · rw [g6]
      have h2 := f2.out
      rw [List.nil_append] at h2
      rw [h2]
      rfl
  · obtain ⟨i, f1⟩ := p2 hl
    rw [f1] at g1
    dsimp only at g1
    subst g1
    refine ⟨w1', .inr ⟨?_, g2, by omega⟩⟩
    rw [onTls_error (e := .err .outOfMemory) (t := c.tls) (s' := w1')]
    · rfl
    · unfold sendPacket
      rw [X.bind_error (X.onFst_run (X.ofM_error hon) c.tls)]
      rfl

/-! ## Receiving -/

/-- What `process` does with the result of `recv`. -/
def after (dbg : Bool) (secs : UInt32) (ev : Option Event) : X Error (σ × Client x) Event :=
  match ev with
  | some ev => pure ev
  | none => checkTimeout dbg secs

/-- A reader of the unread data `D` of the client. -/
structure ReaderOf (c : Client x) (D : Bytes) (r : TlsReader) (pos : Nat) : Prop where
  rel : Tls.TRel r ⟨D, pos⟩
  head : r.head = c.tls.rx.head
  wrap : r.wrap = c.tls.rx.n

theorem ReaderOf.run {α : Type} {c : Client x} {D : Bytes} {r : TlsReader} {pos : Nat} (h : ReaderOf c D r pos) (dbg : Bool) (prog : RProg α)
    {o : Except Err α} {cur : Cursor} (hp : prog.run cursorOps ⟨D, pos⟩ = (o, cur)) :
    ∃ r', prog.run (TlsReader.ops dbg) r = (o, r') ∧ ReaderOf c D r' cur.pos ∧ cur.data = D := by
  obtain ⟨h1, h2, h3, h4, h5⟩ := Tls.tlsReader_sim dbg prog h.rel
  rw [hp] at h1 h2 h5
  obtain ⟨cd, cp⟩ := cur
  dsimp only at h1 h2 h5
  subst h5
  generalize prog.run (TlsReader.ops dbg) r = y at *
  obtain ⟨y1, y2⟩ := y
  dsimp only at h1
  subst h1
  exact ⟨y2, rfl, ⟨h2, h3.trans h.head, h4.trans h.wrap⟩, rfl⟩

theorem reader_some {c : Client x} {D : Bytes} (h : Tls.Holds c.tls D) (hne : D ≠ []) :
    ∃ r, c.tls.reader = .ok r ∧ ReaderOf c D r 0 := by
  obtain ⟨r, e, h1, h2, h3⟩ := Tls.QRel.reader h hne
  exact ⟨r, e, h1, h2, h3⟩

/-- Only the receive buffer changed, and it holds exactly `D`. -/
structure Left (c c' : Client x) (D : Bytes) : Prop where
  holds : Tls.Holds c'.tls D
  same : c' = { c with tls := { c.tls with rx := c'.tls.rx } }
  size : c'.tls.rx.n = c.tls.rx.n

theorem done_run {ε : Type} {c : Client x} {D : Bytes} {r : TlsReader} {pos : Nat} (h : Tls.Holds c.tls D) (hr : ReaderOf c D r pos) (s : σ) :
    ∃ c', (readerDone r : X ε (σ × Client x) Unit) (s, c) = (.ok (), (s, c')) ∧ Left c c' (D.drop pos) :=
  ⟨{ c with tls := { c.tls with rx := { c.tls.rx with head := r.done } } }, rfl, Tls.QRel.done h hr.rel hr.head hr.wrap, rfl, rfl⟩

/-- The part of `process` after the TLS client was called. -/
theorem data_run (dbg : Bool) (secs : UInt32) {s : σ} {c : Client x} {D : Bytes} (h : Tls.Holds c.tls D) :
    (D = [] → receive dbg secs (s, c) = checkTimeout dbg secs (s, c)) ∧
    (D ≠ [] →
      (∀ out cur, (Mqtt.recvProg dbg c.state).run cursorOps ⟨D, 0⟩ = (.ok out, cur) →
        ∃ r', ReaderOf c D r' cur.pos ∧ receive dbg secs (s, c) = (recvFinish r' out >>= after dbg secs) (s, c)) ∧
      (∀ e cur, (Mqtt.recvProg dbg c.state).run cursorOps ⟨D, 0⟩ = (.error e, cur) →
        receive dbg secs (s, c) = (.error (mapW5500 (X.ofErr e)), (s, c)))) := by
  constructor
  · intro he
    unfold receive
    rw [X.bind_ok (getC_run (s, c)), show c.tls.reader = .error .wouldBlock from Tls.QRel.no_reader h he]
  · intro hne
    obtain ⟨r, e, hr⟩ := reader_some h hne
    constructor
    · intro out cur hp
      obtain ⟨r', e1, e2, -⟩ := hr.run dbg _ hp
      refine ⟨r', e2, ?_⟩
      unfold receive
      rw [X.bind_ok (getC_run (s, c)), e]
      dsimp only
      unfold recv
      rw [X.bind_run, X.bind_ok (getC_run (s, c)), e1]
      rfl
    · intro e' cur hp
      obtain ⟨r', e1, e2, -⟩ := hr.run dbg _ hp
      unfold receive
      rw [X.bind_ok (getC_run (s, c)), e]
      dsimp only
      unfold recv
      rw [X.bind_run, X.bind_ok (getC_run (s, c)), e1]
      rfl

/-- A complete packet. -/
theorem packet_in (dbg : Bool) (secs : UInt32) {s : σ} {c : Client x} {D : Bytes} (h : Tls.Holds c.tls D) (t f : Nat) (body : Bytes)
    (hp : Spec.Mqtt.packet t f body <+: D) :
    D.length ≤ 32767 ∧ ∃ rest, D = Spec.Mqtt.packet t f body ++ rest ∧
    ∀ out cur, (Mqtt.recvBody c.state (Mqtt.header t f body)).run cursorOps
        ⟨Spec.Mqtt.packet t f body ++ rest, 1 + (Spec.Mqtt.vbi body.length).length⟩ = (.ok out, cur) →
      ∃ r', ReaderOf c D r' cur.pos ∧ receive dbg secs (s, c) = (recvFinish r' out >>= after dbg secs) (s, c) := by
  have hsmall : D.length ≤ 32767 := Tls.QRel.app_small h
  obtain ⟨rest, rfl⟩ := hp
  refine ⟨hsmall, rest, rfl, ?_⟩
  have hD : Spec.Mqtt.packet t f body ++ rest = UInt8.ofNat (t * 16 + f) :: (Spec.Mqtt.vbi body.length ++ (body ++ rest)) := by
    simp [Spec.Mqtt.packet]
  generalize Spec.Mqtt.packet t f body ++ rest = D at *
  have hlen : body.length ≤ 32767 := by rw [hD] at hsmall; simp at hsmall; omega
  have hc := recv_complete dbg c.state (UInt8.ofNat (t * 16 + f)) (Spec.Mqtt.vbi body.length) body rest (Thm.vbi_isVbi _)
    (by have := Mqtt.vbi_length_le body.length (by omega); omega) (by rw [← hD]; omega)
  rw [← hD] at hc
  have h2 := ((data_run dbg secs (s := s) h).2 (by rw [hD]; simp)).1
  rw [hc] at h2
  exact h2

theorem process_eq (dbg : Bool) (fuel : Nat) (b : Bus σ) (rng : Rng x) (secs : UInt32) {s s1 : σ} {c : Client x} {t : Tls.Client x} {ev : TEvent}
    (h : Tls.process dbg fuel b rng secs (s, c.tls) = (.ok ev, (s1, t))) :
    process dbg fuel b rng secs (s, c) = onEvent dbg b secs ev (s1, { c with tls := t }) := by
  unfold process
  rw [X.bind_ok (onTls_ok h)]

theorem process_receive (dbg : Bool) (fuel : Nat) (b : Bus σ) (rng : Rng x) (secs : UInt32) {s s1 : σ} {c : Client x} {t : Tls.Client x} {ev : TEvent}
    (h : Tls.process dbg fuel b rng secs (s, c.tls) = (.ok ev, (s1, t))) (hev : ev = .applicationData ∨ ev = .none) :
    process dbg fuel b rng secs (s, c) = receive dbg secs (s1, { c with tls := t }) := by
  rw [process_eq dbg fuel b rng secs h]
  rcases hev with rfl | rfl <;> rfl

end Verif.MqttTls
