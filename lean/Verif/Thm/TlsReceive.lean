import Verif.Proof.TlsReceive
import Verif.Thm.TlsWitness
/-!
# C83 and C84: received records
-/
namespace Verif.Tls
open Verif Hl
open _root_.Verif.Spec (World worldBus TxState RxState Queue Chip Mem)

variable {x : Crypto}

/-- The buffer of the client holds exactly `unread` for the application, and no part of a record. -/
def Holds (c : Client x) (unread : Bytes) : Prop := QRel c.rx ⟨c.rx.n - 1, unread, []⟩

/-- What the application sees when it uses a reader of the client. -/
def seen (dbg : Bool) (c : Client x) (prog : RProg Bytes) : Except Err Bytes :=
  match c.reader with
  | .error e => .error e
  | .ok r => (prog.run (TlsReader.ops dbg) r).1

/-- Every use of a reader gives what the bytes `data` give; there is no reader when there is no data. -/
def Reads (c : Client x) (data : Bytes) : Prop :=
  ∀ dbg prog, seen dbg c prog = if data = [] then .error .wouldBlock else (prog.run Spec.cursorOps ⟨data, 0⟩).1

theorem QRel.reads {c : Client x} {q : Queue} (h : QRel c.rx q) : Reads c q.app := by
  intro dbg prog
  have := (h.step dbg (.read prog false) ⟨trivial, trivial⟩ ⟨trivial, trivial⟩).1
  simp only [Buffer.step, Queue.step] at this
  unfold seen Client.reader
  by_cases he : q.app = []
  · rw [if_pos he] at this
    rw [if_pos he]
    cases hr : c.rx.appDataReader with
    | error e => rw [hr] at this; simpa using this
    | ok r => rw [hr] at this; simpa using this
  · rw [if_neg he] at this
    rw [if_neg he]
    cases hr : c.rx.appDataReader with
    | error e => rw [hr] at this; simpa using this
    | ok r => rw [hr] at this; simpa using this

theorem Holds.reads {c : Client x} {data : Bytes} (h : Holds c data) : Reads c data := QRel.reads (q := ⟨_, data, []⟩) h

/-- A connected client with traffic secret `t` for what it receives, and `unread` data; byte `p` of the received stream is the next. -/
structure Ready (w : World) (c : Client x) (t : Bytes) (p : Nat) (unread : Bytes) : Prop where
  connected : c.connected = true
  traffic : c.ks.serverTraffic = some t
  client : c.ks.clientTraffic.isSome = true
  seq : c.ks.readSeq.toNat + 1 < 2 ^ 64
  holds : Holds c unread
  rx : RxState w.chip c.sn.toU8.toNat p
  tx : TxState w.chip c.sn.toU8.toNat

/-- The interrupts that `process` reads: no CON, DISCON or TIMEOUT. -/
def Quiet (w : World) (c : Client x) : Prop := Spec.Mqtt.quiet (w.tick.chip.mem (4 * c.sn.toU8.toNat + 1) 2) = true

theorem _root_.Verif.Peace.quiet {w : World} {c : Client x} (h : Peace c.sn.toU8.toNat w) : Quiet w c := h.tick.now

theorem connected_state {c : Client x} (h : c.connected = true) : c.state = .connected := by
  unfold Client.connected at h
  exact of_decide_eq_true h

theorem u16_value (n : Nat) (hn : n < 65536) : (be16 ((Spec.Tls.u16 n).getD 0 0) ((Spec.Tls.u16 n).getD 1 0)).toNat = n := by
  rw [← u16_val n hn]
  show (be16 ((UInt16.ofNat n) >>> 8).toUInt8 (UInt16.ofNat n).toUInt8).toNat = n
  rw [be16_toBe16, ofNat16_toNat hn]

/-- The header of a protected record: the type application data, any version, and the length. -/
def IsHeader (header : Bytes) (n : Nat) : Prop := ∃ v1 v2, header = [23, v1, v2] ++ Spec.Tls.u16 n

/-- A protected record at byte `p` of what the socket received, that is not longer than the client accepts and that fits. -/
structure Arrived (w : World) (c : Client x) (p : Nat) (unread header record : Bytes) : Prop where
  arrived : header ++ record <+: (w.chip.received c.sn.toU8.toNat).drop p
  header : IsHeader header record.length
  long : 17 ≤ record.length
  short : record.length ≤ c.recordSizeLimit.toNat
  fits : unread.length + (record.length - 16) ≤ c.rx.n - 1

theorem QRel.n_eq {b : Buffer} {q : Queue} (h : QRel b q) : b.n - 1 = q.cap := by
  have := h.cap
  show b.buf.length - 1 = _
  omega

theorem call_run (hx : x.Standard) (dbg : Bool) (fuel : Nat) (rng : Rng x) (secs : UInt32) {w : World} {c : Client x} {t : Bytes} {p : Nat}
    {unread header record : Bytes} (hr : Ready w c t p unread) (hi : Quiet w c) (ha : Arrived w c p unread header record) :
    (∃ w', dbg = true ∧ process dbg fuel worldBus rng secs (w, c) = (.error (.stop .panic), (w', c))) ∨
    (∃ base w0 w1 rx1 pend, Sock w w0 c.sn.idx base p ∧ Sock w w1 c.sn.idx base (p + 5 + record.length) ∧
      w1.chip.rxRd c.sn.idx = (base + (p + 5 + record.length)) % 65536 ∧ QRel rx1 ⟨c.rx.n - 1, unread, pend⟩ ∧
      process dbg fuel worldBus rng secs (w, c) = (recv dbg fuel worldBus secs >>= fun event =>
        match event with
        | some event => pure event
        | none => afterRecv dbg worldBus secs) (w0, c) ∧
      (Spec.Tls.unprotect t c.ks.readSeq.toNat header record = none →
        recv dbg fuel worldBus secs (w0, c) = failFatal worldBus .badRecordMac secs (w1, { c with rx := rx1 })) ∧
      (∀ inner, Spec.Tls.unprotect t c.ks.readSeq.toNat header record = some inner →
        pend = inner.dropLast ∧ inner.length + 16 = record.length ∧
        (inner.getLast? = some 23 → ∃ rx2, QRel rx2 ⟨c.rx.n - 1, unread ++ inner.dropLast, []⟩ ∧
          recv dbg fuel worldBus secs (w0, c) = (.ok (some .applicationData),
            (w1, { c with rx := rx2, ks := { c.ks with readSeq := c.ks.readSeq + 1 } }))) ∧
        (∀ e last, inner.getLast? = some last → ContentType.tryFrom last = .error e →
          recv dbg fuel worldBus secs (w0, c) = failFatal worldBus .decodeError secs (w1, { c with rx := rx1 })) ∧
        (∀ ct last, inner.getLast? = some last → ContentType.tryFrom last = .ok ct → ct ≠ .applicationData →
          recv dbg fuel worldBus secs (w0, c)
            = recvRecord dbg fuel worldBus secs (toHeader header) .applicationData ct false (w1, { c with rx := rx1 })))) := by
  obtain ⟨base, hat⟩ := hr.rx.at
  have hcon := connected_state hr.connected
  obtain ⟨v1, v2, hh⟩ := ha.header
  have h5 : header.length = 5 := by rw [hh]; rfl
  have hlt : record.length < 65536 := by
    have := ha.short
    have := u16_lt c.recordSizeLimit
    omega
  have hpl := ha.arrived.length_le
  rw [List.length_append, List.length_drop, h5] at hpl
  have htake : ((w.chip.received c.sn.idx).drop p).take (5 + record.length) = header ++ record := by
    have := List.prefix_iff_eq_take.mp ha.arrived
    rw [List.length_append, h5] at this
    exact this.symm
  obtain ⟨w0, hs0, hrd0, hp⟩ := process_recv dbg fuel rng secs c (by rw [hcon]; rfl) hat hr.tx hi (by show p + 5 ≤ (w.chip.received c.sn.toU8.toNat).length; omega)
  have := recv_run hx dbg fuel secs (cap := c.rx.n - 1) (app := unread) c header record t hs0 hrd0 h5 htake (by rw [hh]; rfl)
    (by rw [hh]; exact u16_value record.length hlt) ha.long ha.short hr.holds ha.fits hr.traffic hr.seq
  rcases this with ⟨w', hdbg, e⟩ | ⟨w1, rx1, pend, g1, g2, g3, -, g4, g5⟩
  · exact .inl ⟨w', hdbg, by rw [hp, X.bind_error e]⟩
  · exact .inr ⟨base, w0, w1, rx1, pend, hs0, g1, g2, g3, hp, g4, fun inner hi => ⟨(g5 inner hi).1, (g5 inner hi).2.1, fun h => (g5 inner hi).2.2.1 h hcon, (g5 inner hi).2.2.2⟩⟩

/-- The data was delivered: the event, the data readable after what was readable, and the client ready for the next record. -/
structure Delivered (w : World) (c : Client x) (t : Bytes) (p : Nat) (unread content : Bytes) (n : Nat)
    (r : Except (Fail TErr) TEvent × (World × Client x)) : Prop where
  event : r.1 = .ok .applicationData
  reads : Reads r.2.2 (unread ++ content)
  holds : Holds r.2.2 (unread ++ content)
  keys : r.2.2.ks = { c.ks with readSeq := c.ks.readSeq + 1 }
  same : r.2.2 = { c with rx := r.2.2.rx, ks := r.2.2.ks }
  size : r.2.2.rx.n = c.rx.n
  rx : RxState r.2.1.chip c.sn.toU8.toNat (p + 5 + n)
  tx : TxState r.2.1.chip c.sn.toU8.toNat
  sent : r.2.1.chip.sent = w.chip.sent
  received : w.chip.received c.sn.toU8.toNat <+: r.2.1.chip.received c.sn.toU8.toNat
  peace : Peace c.sn.toU8.toNat w → Peace c.sn.toU8.toNat r.2.1

theorem call_delivered (hx : x.Standard) (dbg : Bool) (fuel : Nat) (rng : Rng x) (secs : UInt32) {w : World} {c : Client x} {t : Bytes} {p : Nat}
    {unread header record : Bytes} (hr : Ready w c t p unread) (hi : Quiet w c) (ha : Arrived w c p unread header record) (content : Bytes)
    (hu : Spec.Tls.unprotect t c.ks.readSeq.toNat header record = some (content ++ [23])) :
    let r := process dbg fuel worldBus rng secs (w, c)
    (dbg = true ∧ r.1 = .error (.stop .panic)) ∨ Delivered w c t p unread content record.length r := by
  intro r
  rcases call_run hx dbg fuel rng secs hr hi ha with ⟨w', hdbg, e⟩ | ⟨base, w0, w1, rx1, pend, hs0, hs1, hrd1, -, hp, -, h⟩
  · left
    exact ⟨hdbg, congrArg Prod.fst e⟩
  right
  obtain ⟨-, -, h3, -⟩ := h _ hu
  obtain ⟨rx2, hq, e⟩ := h3 (by simp)
  have hn : rx2.n = c.rx.n := by
    have h1 := hq.cap; have h2 := hr.holds.cap
    dsimp only at h1 h2
    show rx2.buf.length = c.rx.buf.length
    omega
  rw [List.dropLast_concat] at hq
  have he : r = (.ok .applicationData, (w1, { c with rx := rx2, ks := { c.ks with readSeq := c.ks.readSeq + 1 } })) := by
    show process dbg fuel worldBus rng secs (w, c) = _
    rw [hp, X.bind_ok e]
    rfl
  have hh : Holds { c with rx := rx2, ks := { c.ks with readSeq := c.ks.readSeq + 1 } } (unread ++ content) := by
    unfold Holds
    dsimp only
    rw [hn]
    exact hq
  rw [he]
  exact ⟨rfl, hh.reads, hh, rfl, rfl, hn, (RxAt.state ⟨hs1.rx, hrd1⟩), hs1.tx, hs1.sent, hs1.pre, hs1.peace⟩

/-! ## C83 -/

/-- The bytes of a protected record are a header and an `encrypted_record` which the receiver can open. -/
theorem protect_opens (t : Bytes) (n : Nat) (type : UInt8) (content : Bytes) :
    ∃ header record, Spec.Tls.protect t n type content = header ++ record ∧ IsHeader header record.length ∧
      record.length = content.length + 17 ∧ Spec.Tls.unprotect t n header record = some (content ++ [type]) := by
  have hl := protect_length t n type content
  unfold Spec.Tls.protect at hl ⊢
  dsimp only at hl ⊢
  generalize hs : Spec.Gcm.ae (Spec.Tls.recordCipher t) (Spec.Tls.recordNonce t n) (Spec.Tls.protectedHeader (content.length + 1 + 16))
    (content ++ [type]) = sealed at hl ⊢
  have hc : sealed.1.length = content.length + 1 := by
    rw [← hs]
    show (Spec.Gcm.crypt _ _ _).length = _
    unfold Spec.Gcm.crypt
    rw [gctr_length, List.length_append]
    rfl
  have h5 : (Spec.Tls.protectedHeader (content.length + 1 + 16)).length = 5 := rfl
  simp only [List.length_append, h5] at hl
  have hlen : (sealed.1 ++ sealed.2).length = content.length + 17 := by rw [List.length_append]; omega
  refine ⟨Spec.Tls.protectedHeader (content.length + 1 + 16), sealed.1 ++ sealed.2, by rw [List.append_assoc], ?_, hlen, ?_⟩
  · exact ⟨3, 3, by rw [hlen]; rfl⟩
  · unfold Spec.Tls.unprotect
    rw [hlen, show content.length + 17 - 16 = sealed.1.length by omega, List.take_left, List.drop_left, ← hs]
    exact C54_inverse _ _ _ _

/-- C83, delivery: a record with application data that the server protected with its traffic secret and the next sequence number, that
has arrived, is not longer than the client accepts and fits into the buffer, is delivered by the next call of `process`: the application
can then read exactly what it could read before, followed by the content of the record.  (In a debug build an assertion about the status
of the socket may fail.) -/
theorem C83_delivery (hx : x.Standard) (dbg : Bool) (fuel : Nat) (rng : Rng x) (secs : UInt32) (w : World) (c : Client x) (t : Bytes) (p : Nat)
    (unread content : Bytes) (hr : Ready w c t p unread) (hi : Quiet w c)
    (ha : Spec.Tls.protect t c.ks.readSeq.toNat 23 content <+: (w.chip.received c.sn.toU8.toNat).drop p)
    (hs : content.length + 17 ≤ c.recordSizeLimit.toNat) (hf : unread.length + content.length + 2 ≤ c.rx.n) :
    let r := process dbg fuel worldBus rng secs (w, c)
    (dbg = true ∧ r.1 = .error (.stop .panic)) ∨ Delivered w c t p unread content (content.length + 17) r := by
  obtain ⟨header, record, e1, e2, e3, e4⟩ := protect_opens t c.ks.readSeq.toNat 23 content
  rw [e1] at ha
  rw [← e3]
  exact call_delivered hx dbg fuel rng secs hr hi ⟨ha, e2, by omega, by omega, by omega⟩ content e4

/-- C83, forgeries: a record whose tag is wrong (for the traffic secret of the server, the next sequence number and the header that
arrived) is not delivered.  The client reports `BadRecordMac`, is not connected any more, has no keys, and the application reads no
more than it could before. -/
theorem C83_forgery (hx : x.Standard) (dbg : Bool) (fuel : Nat) (rng : Rng x) (secs : UInt32) (w : World) (c : Client x) (t : Bytes) (p : Nat)
    (unread header record : Bytes) (hr : Ready w c t p unread) (hi : Quiet w c) (ha : Arrived w c p unread header record)
    (hu : Spec.Tls.unprotect t c.ks.readSeq.toNat header record = none) :
    let r := process dbg fuel worldBus rng secs (w, c)
    (dbg = true ∧ r.1 = .error (.stop .panic)) ∨
    ((∃ a : Alert, r.1 = .error (.err (.client a)) ∧ a.description = .badRecordMac) ∧ r.2.2.connected = false ∧
      r.2.2.ks = KeySchedule.default x ∧ Reads r.2.2 unread ∧ ∃ alerts : List Bytes,
        r.2.1.chip.sent.map (·.payload) = w.chip.sent.map (·.payload) ++ alerts ∧
        ∀ a ∈ alerts, ∃ k, c.ks.clientTraffic = some k ∧ a = Spec.Tls.protect k c.ks.writeSeq.toNat 21 [2, 20]) := by
  intro r
  rcases call_run hx dbg fuel rng secs hr hi ha with ⟨w', hdbg, e⟩ | ⟨base, w0, w1, rx1, pend, hs0, hs1, hrd1, hq, hp, h, -⟩
  · left
    exact ⟨hdbg, congrArg Prod.fst e⟩
  right
  obtain ⟨k, hk⟩ := Option.isSome_iff_exists.mp hr.client
  obtain ⟨w2, c2, e2, f1, f2, f3, f4, f5⟩ := failFatal_run (α := Option TEvent) hx { c with rx := rx1 } .badRecordMac secs hs1.tx
    (fun _ => hr.client)
  have he : r = (.error (.err (.client (Alert.newFatal .badRecordMac))), (w2, c2)) := by
    show process dbg fuel worldBus rng secs (w, c) = _
    rw [hp, X.bind_error ((h hu).trans e2)]
  rw [he]
  have ha : alertRecord ({ c with rx := rx1 } : Client x).ks .fatal .badRecordMac = Spec.Tls.protect k c.ks.writeSeq.toNat 21 [2, 20] := by
    unfold alertRecord
    dsimp only
    rw [hr.traffic, hk]
    rfl
  refine ⟨⟨_, rfl, rfl⟩, ?_, f3, ?_, ?_⟩
  · unfold Client.connected
    rcases f5 with ⟨f5, -⟩ | ⟨f5, -⟩ <;> rw [f5] <;> rfl
  · have : QRel c2.rx ⟨c.rx.n - 1, unread, pend⟩ := by rw [f1]; exact hq
    exact this.reads
  · rcases f5 with ⟨-, f6⟩ | ⟨-, f6, -⟩
    · refine ⟨[Spec.Tls.protect k c.ks.writeSeq.toNat 21 [2, 20]], ?_, ?_⟩
      · rw [f6, ha, List.map_append, hs1.sent]
        rfl
      · intro a ha
        exact ⟨k, hk, List.mem_singleton.mp ha⟩
    · exact ⟨[], by rw [f6, hs1.sent, List.append_nil], by simp⟩

theorem afterRecv_ne {σ : Type} (dbg : Bool) (b : Bus σ) (secs : UInt32) (s s' : σ × Client x) :
    afterRecv dbg b secs s ≠ (.ok .applicationData, s') := by
  unfold afterRecv
  apply bind_ne
  intro c s s'
  split
  · exact bind_ne _ _ _ (fun _ s s' => pure_ne (by simp) s s') _ _
  · unfold checkTimeout
    apply bind_ne
    intro c s s'
    apply bind_ne
    intro e s s'
    cases e with
    | none => exact pure_ne (by simp) s s'
    | some e =>
      dsimp only
      split
      · exact bind_ne _ _ _ (fun _ s s' => throw_ne _ s s' _) _ _
      · exact pure_ne (by simp) s s'

/-- The only content type with the code 23. -/
theorem tryFrom_app : ∀ y : UInt8, ContentType.tryFrom y = .ok .applicationData → y = 23 :=
  forall_u8 (p := fun y => ContentType.tryFrom y = .ok .applicationData → y = 23) (by decide +kernel)

/-- C83, authenticity: when `process` reports application data from a record that had arrived, then the tag of the record is right, its
content has the type application data, and this content, and nothing else, was added to what the application can read. -/
theorem C83_authenticity (hx : x.Standard) (dbg : Bool) (fuel : Nat) (rng : Rng x) (secs : UInt32) (w : World) (c : Client x) (t : Bytes) (p : Nat)
    (unread header record : Bytes) (hr : Ready w c t p unread) (hi : Quiet w c) (ha : Arrived w c p unread header record) :
    let r := process dbg fuel worldBus rng secs (w, c)
    r.1 = .ok .applicationData →
    ∃ content, Spec.Tls.unprotect t c.ks.readSeq.toNat header record = some (content ++ [23]) ∧
      Delivered w c t p unread content record.length r := by
  intro r hok
  have hd := fun content hu => (call_delivered hx dbg fuel rng secs hr hi ha content hu).resolve_left (by
    intro h
    have := h.2.symm.trans hok
    simp at this)
  rcases call_run hx dbg fuel rng secs hr hi ha with ⟨w', hdbg, e⟩ | ⟨base, w0, w1, rx1, pend, hs0, hs1, hrd1, hq, hp, h0, h⟩
  · exact absurd (hok.symm.trans (congrArg Prod.fst e)) (by simp)
  · have hok' : process dbg fuel worldBus rng secs (w, c) = (.ok .applicationData, r.2) := by
      show r = _
      rw [← hok]
    rw [hp] at hok'
    cases hu : Spec.Tls.unprotect t c.ks.readSeq.toNat header record with
    | none =>
      rw [X.bind_run, h0 hu] at hok'
      exact absurd ((congrFun (failFatal_bind worldBus .badRecordMac secs _) _).symm.trans hok') (failFatal_ne _ _ _ _ _ _)
    | some inner =>
      obtain ⟨-, hil, -, h2, h3⟩ := h inner hu
      have hlong := ha.long
      have hne : inner ≠ [] := by
        intro e
        rw [e] at hil
        simp only [List.length_nil] at hil
        omega
      have hlast := List.getLast?_eq_some_getLast hne
      have hsplit := List.dropLast_append_getLast hne
      generalize inner.getLast hne = last at hlast hsplit
      cases hct : ContentType.tryFrom last with
      | error e =>
        rw [X.bind_run, h2 e last hlast hct] at hok'
        exact absurd ((congrFun (failFatal_bind worldBus .decodeError secs _) _).symm.trans hok') (failFatal_ne _ _ _ _ _ _)
      | ok ct =>
        by_cases hc : ct = .applicationData
        · rw [hc] at hct
          rw [tryFrom_app _ hct] at hsplit
          exact ⟨inner.dropLast, by rw [hsplit], hd _ (by rw [hu, hsplit])⟩
        · have h4 := h3 ct last hlast hct hc
          rw [X.bind_run] at hok'
          rcases hrv : recv dbg fuel worldBus secs (w0, c) with ⟨e | ev, s1⟩
          · rw [hrv] at hok'
            have := congrArg Prod.fst hok'
            simp at this
          · cases ev with
            | some ev =>
              rw [h4] at hrv
              exact absurd hrv (recvRecord_some _ _ _ _ _ _ _ _ _ hc _ _)
            | none =>
              rw [hrv] at hok'
              exact absurd hok' (afterRecv_ne _ _ _ _ _)

/-- The records with these contents, from some sequence number on. -/
def protectAll (t : Bytes) : Nat → List Bytes → Bytes
  | _, [] => []
  | n, content :: rest => Spec.Tls.protect t n 23 content ++ protectAll t (n + 1) rest

/-- Calls of `process`. -/
def calls (fuel : Nat) (rng : Rng x) (secs : UInt32) : Nat → World × Client x → World × Client x
  | 0, s => s
  | n + 1, s => calls fuel rng secs n (process false fuel worldBus rng secs s).2

/-- C83, streams: any number of records that arrived one after the other are delivered by as many calls of `process` (in a release
build), completely and in order, if the connection is not interrupted. -/
theorem C83_stream (hx : x.Standard) (fuel : Nat) (rng : Rng x) (secs : UInt32) (t : Bytes) (contents : List Bytes) :
    ∀ (w : World) (c : Client x) (p : Nat) (unread : Bytes), Ready w c t p unread →
    c.ks.readSeq.toNat + contents.length + 1 < 2 ^ 64 →
    protectAll t c.ks.readSeq.toNat contents <+: (w.chip.received c.sn.toU8.toNat).drop p →
    (∀ content ∈ contents, content.length + 17 ≤ c.recordSizeLimit.toNat) →
    unread.length + contents.flatten.length + 2 ≤ c.rx.n →
    Peace c.sn.toU8.toNat w →
    (∀ i, i < contents.length → (process false fuel worldBus rng secs (calls fuel rng secs i (w, c))).1 = .ok .applicationData) ∧
    Reads (calls fuel rng secs contents.length (w, c)).2 (unread ++ contents.flatten) := by
  induction contents with
  | nil =>
    intro w c p unread hr _ _ _ _ _
    refine ⟨fun i hi => absurd hi (Nat.not_lt_zero _), ?_⟩
    rw [List.flatten_nil, List.append_nil]
    exact hr.holds.reads
  | cons content rest ih =>
    intro w c p unread hr hseq ha hs hf hq
    rw [List.length_cons] at hseq
    rw [List.flatten_cons, List.length_append] at hf
    obtain ⟨tail, htail⟩ := ha
    have ha1 : Spec.Tls.protect t c.ks.readSeq.toNat 23 content <+: (w.chip.received c.sn.toU8.toNat).drop p :=
      ⟨protectAll t (c.ks.readSeq.toNat + 1) rest ++ tail, by rw [← htail, protectAll, List.append_assoc]⟩
    have hd := (C83_delivery hx false fuel rng secs w c t p unread content hr (Peace.quiet hq) ha1 (hs _ (by simp)) (by omega)).resolve_left
      (by intro h; simp at h)
    generalize hrr : process false fuel worldBus rng secs (w, c) = r at hd
    obtain ⟨e, w1, c1⟩ := r
    obtain ⟨d1, d2, d3, d4, d5, d6, d7, d8, d9, d10, d11⟩ := hd
    dsimp only at d1 d2 d3 d4 d5 d6 d7 d8 d9 d10 d11
    have hsn : c1.sn = c.sn := by rw [d5]
    have hst : c1.state = c.state := by rw [d5]
    have hn1 : c1.ks.readSeq.toNat = c.ks.readSeq.toNat + 1 := by
      rw [d4]
      show (c.ks.readSeq + 1).toNat = _
      rw [UInt64.toNat_add, show (1 : UInt64).toNat = 1 from rfl]
      omega
    have hlim : c1.recordSizeLimit = c.recordSizeLimit := by unfold Client.recordSizeLimit; rw [d6]
    have hready : Ready w1 c1 t (p + 5 + (content.length + 17)) (unread ++ content) := by
      refine ⟨?_, by rw [d4]; exact hr.traffic, by rw [d4]; exact hr.client, by rw [hn1]; omega, d3, by rw [hsn]; exact d7, by rw [hsn]; exact d8⟩
      unfold Client.connected
      rw [hst]
      exact hr.connected
    have harr : protectAll t c1.ks.readSeq.toNat rest <+: (w1.chip.received c1.sn.toU8.toNat).drop (p + 5 + (content.length + 17)) := by
      rw [hn1, hsn]
      obtain ⟨more, hmore⟩ := d10
      have hpl := protect_length t c.ks.readSeq.toNat 23 content
      have hle := hr.rx.le
      refine ⟨tail ++ more, ?_⟩
      rw [← hmore, List.drop_append_of_le_length (by
        have := congrArg List.length htail
        rw [protectAll] at this
        simp only [List.length_append, List.length_drop, hpl] at this
        omega)]
      rw [show p + 5 + (content.length + 17) = p + (Spec.Tls.protect t c.ks.readSeq.toNat 23 content).length by omega, ← List.drop_drop,
        ← htail, protectAll, List.append_assoc, List.drop_left, List.append_assoc]
    obtain ⟨g1, g2⟩ := ih w1 c1 _ _ hready (by rw [hn1]; omega) harr (fun y hy => by rw [hlim]; exact hs y (by simp [hy]))
      (by rw [d6, List.length_append]; omega) (by
        rw [hsn]
        exact d11 hq)
    refine ⟨?_, ?_⟩
    · intro i hi
      cases i with
      | zero => show (process false fuel worldBus rng secs (w, c)).1 = _; rw [hrr]; exact d1
      | succ i =>
        rw [calls, hrr]
        exact g1 i (by rw [List.length_cons] at hi; omega)
    · rw [List.length_cons, calls, hrr, List.flatten_cons, ← List.append_assoc]
      exact g2

/-! ## C84 -/

/-- The call failed with this alert: the client reports it, is not connected any more and has no keys, and the application can read
what it could read before. -/
def Refused (d : AlertDescription) (unread : Bytes) (r : Except (Fail TErr) TEvent × (World × Client x)) : Prop :=
  (∃ a : Alert, r.1 = .error (.err (.client a)) ∧ a.description = d) ∧ r.2.2.connected = false ∧ r.2.2.ks = KeySchedule.default x ∧
  Reads r.2.2 unread

theorem refused_of (hx : x.Standard) (dbg : Bool) (secs : UInt32) (d : AlertDescription) {w1 : World} {c : Client x} {rx1 : Buffer}
    {unread pend : Bytes} {s : World × Client x} {m : X TErr (World × Client x) (Option TEvent)} (htx : TxState w1.chip c.sn.idx)
    (hk : c.ks.clientTraffic.isSome = true) (hq : QRel rx1 ⟨c.rx.n - 1, unread, pend⟩)
    (h : m s = failFatal worldBus d secs (w1, { c with rx := rx1 })) :
    Refused d unread ((m >>= fun event =>
      match event with
      | some event => pure event
      | none => afterRecv dbg worldBus secs) s) := by
  obtain ⟨w2, c2, e2, f1, f2, f3, f4, f5⟩ := failFatal_run (α := Option TEvent) hx { c with rx := rx1 } d secs htx (fun _ => hk)
  rw [X.bind_error (h.trans e2)]
  refine ⟨⟨_, rfl, rfl⟩, ?_, f3, ?_⟩
  · unfold Client.connected
    rcases f5 with ⟨f5, -⟩ | ⟨f5, -⟩ <;> rw [f5] <;> rfl
  · have : QRel c2.rx ⟨c.rx.n - 1, unread, pend⟩ := by rw [f1]; exact hq
    exact this.reads

/-- **C84 is false**, padding: RFC 8446, section 5.4, lets the sender of a record put zeros after the type of the content, and tells the
receiver to skip them.  This client refuses every such record with `DecodeError` and ends the connection.  (The inner plaintext of the
record is `content ++ [23]` and `k + 1` zeros.) -/
theorem C84_padding_is_refused (hx : x.Standard) (dbg : Bool) (fuel : Nat) (rng : Rng x) (secs : UInt32) (w : World) (c : Client x) (t : Bytes)
    (p : Nat) (unread content : Bytes) (k : Nat) (hr : Ready w c t p unread) (hi : Quiet w c)
    (ha : Spec.Tls.protect t c.ks.readSeq.toNat 0 (content ++ [23] ++ List.replicate k 0) <+: (w.chip.received c.sn.toU8.toNat).drop p)
    (hs : content.length + k + 18 ≤ c.recordSizeLimit.toNat) (hf : unread.length + content.length + k + 3 ≤ c.rx.n) :
    let r := process dbg fuel worldBus rng secs (w, c)
    (dbg = true ∧ r.1 = .error (.stop .panic)) ∨ Refused .decodeError unread r := by
  intro r
  obtain ⟨header, record, e1, e2, e3, e4⟩ := protect_opens t c.ks.readSeq.toNat 0 (content ++ [23] ++ List.replicate k 0)
  have hl : record.length = content.length + 1 + k + 17 := by rw [e3]; simp; omega
  rw [e1] at ha
  rcases call_run hx dbg fuel rng secs hr hi ⟨ha, e2, by omega, by omega, by omega⟩ with
    ⟨w', hdbg, e⟩ | ⟨base, w0, w1, rx1, pend, hs0, hs1, hrd1, hq, hp, -, h⟩
  · left
    exact ⟨hdbg, congrArg Prod.fst e⟩
  right
  obtain ⟨-, -, -, h4, -⟩ := h _ e4
  show Refused _ _ (process dbg fuel worldBus rng secs (w, c))
  rw [hp]
  exact refused_of hx dbg secs .decodeError hs1.tx hr.client hq (h4 0 0 List.getLast?_concat rfl)

/-- **C84 is false**, sizes: the limit that the client sends in its `record_size_limit` extension is one for the inner plaintext of a record
(RFC 8449, section 4), so that a protected record may have up to 16 bytes more.  This client refuses every record whose inner plaintext
(the content and the type) respects the limit it sends but whose length with the tag is above it, with `RecordOverflow`. -/
theorem C84_size_limit_is_too_strict (hx : x.Standard) (dbg : Bool) (fuel : Nat) (rng : Rng x) (secs : UInt32) (w : World) (c : Client x)
    (t : Bytes) (p : Nat) (unread content : Bytes) (hr : Ready w c t p unread) (hi : Quiet w c)
    (ha : Spec.Tls.protect t c.ks.readSeq.toNat 23 content <+: (w.chip.received c.sn.toU8.toNat).drop p)
    (_hs : content.length + 1 ≤ (c.helloArgs rng).recordSizeLimit.toNat) (hs' : (c.helloArgs rng).recordSizeLimit.toNat < content.length + 17)
    (hl : content.length + 17 < 65536) :
    let r := process dbg fuel worldBus rng secs (w, c)
    (dbg = true ∧ r.1 = .error (.stop .panic)) ∨ Refused .recordOverflow unread r := by
  intro r
  obtain ⟨header, record, e1, ⟨v1, v2, hh⟩, e3, -⟩ := protect_opens t c.ks.readSeq.toNat 23 content
  rw [e1] at ha
  have h5 : header.length = 5 := by rw [hh]; rfl
  obtain ⟨base, hat⟩ := hr.rx.at
  have hpl := ha.length_le
  rw [List.length_append, List.length_drop, h5] at hpl
  have htake : ((w.chip.received c.sn.idx).drop p).take 5 = header := by
    have := List.prefix_iff_eq_take.mp (List.IsPrefix.trans (List.prefix_append header record) ha)
    rw [h5] at this
    exact this.symm
  obtain ⟨w0, hs0, hrd0, hp⟩ := process_recv dbg fuel rng secs c (by rw [connected_state hr.connected]; rfl) hat hr.tx hi
    (by show p + 5 ≤ (w.chip.received c.sn.toU8.toNat).length; omega)
  have hrun := recvHeader_overflow dbg (m := record.length) c header .applicationData hs0 hrd0 htake (by rw [hh]; rfl)
    (by rw [hh]; exact u16_value record.length (by omega)) (by rw [e3]; exact hs')
    (by show p + 5 ≤ (w.chip.received c.sn.toU8.toNat).length; omega)
  rcases hrun with ⟨w', hdbg, e⟩ | ⟨w', e, hsw⟩
  · left
    refine ⟨hdbg, ?_⟩
    show (process dbg fuel worldBus rng secs (w, c)).1 = _
    rw [hp]
    unfold recv
    rw [X.bind_error (X.bind_error (orFatal_stop e))]
  right
  show Refused _ _ (process dbg fuel worldBus rng secs (w, c))
  rw [hp]
  refine refused_of hx dbg secs .recordOverflow (c := c) (rx1 := c.rx) hsw.tx hr.client hr.holds ?_
  unfold recv
  rw [X.bind_run, orFatal_err e]
  exact congrFun (failFatal_bind worldBus .recordOverflow secs _) _

/-! ## Instances -/

theorem tcpWorld_rx (ir : UInt8) (data : Bytes) (h : data.length ≤ 2048) : RxState (Thm.tcpWorld ir data).chip 3 0 := by
  have hr : (Thm.tcpWorld ir data).chip.rxRsr 3 = data.length := by
    show (UInt8.ofNat (data.length / 256)).toNat * 256 + (UInt8.ofNat data.length).toNat = _
    rw [UInt8.toNat_ofNat', UInt8.toNat_ofNat']
    omega
  have hw : (Thm.tcpWorld ir data).chip.rxWr 3 = data.length := by
    show (UInt8.ofNat (data.length / 256)).toNat * 256 + (UInt8.ofNat data.length).toNat = _
    rw [UInt8.toNat_ofNat', UInt8.toNat_ofNat']
    omega
  have hd : (Thm.tcpWorld ir data).chip.rxRd 3 = 0 := (by decide : (0 : UInt8).toNat * 256 + (0 : UInt8).toNat = 0)
  have hz : (Thm.tcpWorld ir data).chip.rxSize 3 = 2048 := (by decide : 1024 * (2 : UInt8).toNat = 2048)
  refine ⟨by rw [hz], by rw [hz]; decide, by rw [hr, hz]; exact h, by rw [hw, hd, hr]; omega, Nat.zero_le _, ?_⟩
  show Spec.Mem.ringRead _ _ _ _ _ = data
  rw [hr, hz, hd]
  apply List.ext_getElem
  · unfold Spec.Mem.ringRead; rw [List.length_map, List.length_range]
  · intro i h1 h2
    unfold Spec.Mem.ringRead
    simp only [List.getElem_map, List.getElem_range, Nat.zero_add]
    rw [Nat.mod_eq_of_lt (by omega)]
    show data.getD i 0 = _
    simp [h2]

theorem tcpWorld_tx (ir : UInt8) (data : Bytes) : TxState (Thm.tcpWorld ir data).chip 3 :=
  ⟨(by decide : 65536 % (1024 * (2 : UInt8).toNat) = 0), (by decide : 1024 * (2 : UInt8).toNat < 65536), rfl,
    (by decide : (8 : UInt8).toNat * 256 + (0 : UInt8).toNat ≤ 1024 * (2 : UInt8).toNat)⟩

namespace Witness

/-- The client after the handshake is ready for the first record of the server. -/
theorem ready (data : Bytes) (h : data.length ≤ 2048) : Ready (Thm.tcpWorld 0 data) c5 serverApp 0 [] where
  connected := rfl
  traffic := rfl
  client := rfl
  seq := by decide
  holds := by
    have h1 : c5.rx.n = 1024 := by decide +kernel
    refine ⟨?_, ?_, ?_, ?_, ?_, ?_, ?_⟩
    all_goals decide +kernel
  rx := tcpWorld_rx 0 data h
  tx := tcpWorld_tx 0 data

theorem peace (data : Bytes) : Peace c5.sn.toU8.toNat (Thm.tcpWorld 0 data) := ⟨(by decide : Spec.Mqtt.quiet 0 = true), nofun⟩

theorem record_length (t : Bytes) (n : Nat) (type : UInt8) (content : Bytes) (h : content.length ≤ 2000) :
    (Spec.Tls.protect t n type content).length ≤ 2048 := by
  rw [protect_length]
  omega

/-- Application data "hi" after the handshake. -/
example : let r := process false 3 worldBus rng 0 (Thm.tcpWorld 0 (Spec.Tls.protect serverApp 0 23 [104, 105]), c5)
    Delivered (Thm.tcpWorld 0 (Spec.Tls.protect serverApp 0 23 [104, 105])) c5 serverApp 0 [] [104, 105] 19 r :=
  (C83_delivery standard false 3 rng 0 _ c5 serverApp 0 [] [104, 105] (ready _ (record_length _ _ _ _ (by decide))) (peace _).quiet
    List.prefix_rfl (by decide +kernel) (by decide +kernel)).resolve_left (fun h => absurd h.1 (by decide))

/-- Two records, with two calls. -/
example : Reads (calls 3 rng 0 2 (Thm.tcpWorld 0 (protectAll serverApp 0 [[104, 105], [33]]), c5)).2 [104, 105, 33] := by
  have hlen : (protectAll serverApp 0 [[104, 105], [33]]).length ≤ 2048 := by
    unfold protectAll protectAll protectAll
    simp only [List.length_append, protect_length, List.length_nil, List.length_cons]
    decide
  refine (C83_stream standard 3 rng 0 serverApp [[104, 105], [33]] _ c5 0 [] (ready _ hlen) (by decide) List.prefix_rfl ?_ (by decide +kernel) (peace _)).2
  decide +kernel

/-- A record with padding. -/
example : Refused .decodeError []
    (process false 3 worldBus rng 0 (Thm.tcpWorld 0 (Spec.Tls.protect serverApp 0 0 ([104, 105] ++ [23] ++ List.replicate 4 0)), c5)) :=
  (C84_padding_is_refused standard false 3 rng 0 _ c5 serverApp 0 [] [104, 105] 4 (ready _ (record_length _ _ _ _ (by decide))) (peace _).quiet
    List.prefix_rfl (by decide +kernel) (by decide +kernel)).resolve_left (fun h => absurd h.1 (by decide))

/-- A record of 1003 bytes, with an inner plaintext of 987 bytes, when the limit is 1002. -/
example : (c5.helloArgs rng).recordSizeLimit = 1002 ∧ Refused .recordOverflow []
    (process false 3 worldBus rng 0 (Thm.tcpWorld 0 (Spec.Tls.protect serverApp 0 23 (List.replicate 986 7)), c5)) :=
  ⟨by decide +kernel, (C84_size_limit_is_too_strict standard false 3 rng 0 _ c5 serverApp 0 [] (List.replicate 986 7)
    (ready _ (record_length _ _ _ _ (by rw [List.length_replicate]; decide))) (peace _).quiet
    List.prefix_rfl (by rw [List.length_replicate]; decide +kernel) (by rw [List.length_replicate]; decide +kernel)
    (by rw [List.length_replicate]; decide)).resolve_left (fun h => absurd h.1 (by decide))⟩

end Witness

end Verif.Tls
