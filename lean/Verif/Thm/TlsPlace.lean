import Verif.Proof.TlsFragment
import Verif.Thm.TlsWaits
/-!
# C98: TLS records that are out of place
-/
namespace Verif.Tls
open Verif Hl
open _root_.Verif.Spec (World worldBus TxState RxState Queue)

variable {x : Crypto}

/-- The alert record with fatal level for an error code: protected if there are traffic keys. -/
def fatalRecord (c : Client x) (code : UInt8) : Bytes :=
  match c.ks.serverTraffic, c.ks.clientTraffic with
  | some _, some k => Spec.Tls.protect k c.ks.writeSeq.toNat 21 [2, code]
  | _, _ => [21, 3, 3, 0, 2, 2, code]

/-- The connection was aborted: the error is reported, the client has no keys any more and is not connected; the alert was sent, unless the transmit
buffer was full. -/
def Aborted (d : AlertDescription) (w : World) (c : Client x) (r : Except (Fail TErr) TEvent × (World × Client x)) : Prop :=
  (∃ a : Alert, r.1 = .error (.err (.client a)) ∧ a.description = d) ∧ r.2.2.connected = false ∧ r.2.2.ks = KeySchedule.default x ∧
  (r.2.1.chip.sent.map (·.payload) = w.chip.sent.map (·.payload) ++ [fatalRecord c d.code] ∨
    (r.2.1.chip.sent = w.chip.sent ∧ w.chip.txFsr c.sn.toU8.toNat < (fatalRecord c d.code).length))

theorem aborted_of (hx : x.Standard) (dbg : Bool) (secs : UInt32) (d : AlertDescription) {w w1 : World} {c : Client x} {rx1 : Buffer}
    {base q : Nat} {s : World × Client x} {m : X TErr (World × Client x) (Option TEvent)} (hs : Sock w w1 c.sn.idx base q)
    (hk : c.ks.serverTraffic.isSome → c.ks.clientTraffic.isSome)
    (h : m s = failFatal worldBus d secs (w1, { c with rx := rx1 })) :
    Aborted d w c ((m >>= fun event =>
      match event with
      | some event => pure event
      | none => afterRecv dbg worldBus secs) s) := by
  obtain ⟨w2, c2, e2, f1, f2, f3, f4, f5⟩ := failFatal_run (α := Option TEvent) hx { c with rx := rx1 } d secs hs.tx hk
  rw [X.bind_error (h.trans e2)]
  refine ⟨⟨_, rfl, rfl⟩, ?_, f3, ?_⟩
  · unfold Client.connected
    rcases f5 with ⟨f5, -⟩ | ⟨f5, -⟩ <;> rw [f5] <;> rfl
  · rcases f5 with ⟨-, f5⟩ | ⟨-, f5, f6⟩
    · left
      rw [f5, hs.sent, List.map_append]
      rfl
    · right
      exact ⟨f5.trans hs.sent, Nat.lt_of_le_of_lt hs.free f6⟩

/-- A client that receives records and holds a part of a handshake message. -/
structure Partway (w : World) (c : Client x) (p : Nat) (unread part : Bytes) : Prop where
  state : c.state ∉ [.reset, .sendDiscon, .waitAlertSendOk, .waitDiscon]
  holds : QRel c.rx ⟨c.rx.n - 1, unread, part⟩
  some : part ≠ []
  keys : c.ks.serverTraffic.isSome → c.ks.clientTraffic.isSome
  rx : RxState w.chip c.sn.toU8.toNat p
  tx : TxState w.chip c.sn.toU8.toNat

theorem Partway.receives {w : World} {c : Client x} {p : Nat} {unread part : Bytes} (h : Partway w c p unread part) : c.state.receives = true := by
  have := h.state
  cases hs : c.state <;> rw [hs] at this <;> first | rfl | exact absurd (by decide) this

/-- C98: RFC 8446 section 5.1, "If a handshake message is split over two or more records, there MUST NOT be any other records between them": an alert or
`change_cipher_spec` that is not protected aborts the connection with `unexpected_message`. -/
theorem C98_between_plain (hx : x.Standard) (dbg : Bool) (fuel : Nat) (rng : Rng x) (secs : UInt32) (w : World) (c : Client x) (p : Nat)
    (unread part : Bytes) (hl : Partway w c p unread part) (hi : Quiet w c) (type v1 v2 : UInt8) (body : Bytes) (ht : type ∈ [20, 21])
    (hb : body ≠ [])
    (ha : [type, v1, v2] ++ Spec.Tls.u16 body.length ++ body <+: (w.chip.received c.sn.toU8.toNat).drop p)
    (hfit : unread.length + part.length + body.length ≤ c.rx.n - 1) (hlim : body.length ≤ c.recordSizeLimit.toNat) :
    let r := process dbg fuel worldBus rng secs (w, c)
    (dbg = true ∧ r.1 = .error (.stop .panic)) ∨ Aborted .unexpectedMessage w c r := by
  intro r
  obtain ⟨base, hat⟩ := hl.rx.at
  have hpl := ha.length_le
  have hu : (Spec.Tls.u16 body.length).length = 2 := rfl
  rw [List.length_drop] at hpl
  simp only [List.length_append, List.length_cons, List.length_nil, hu] at hpl
  have hb0 : 0 < body.length := List.length_pos_iff.mpr hb
  have htake : ((w.chip.received c.sn.idx).drop p).take (5 + body.length) = ([type, v1, v2] ++ Spec.Tls.u16 body.length) ++ body := by
    have := List.prefix_iff_eq_take.mp ha
    rw [this]
    congr 1
    simp only [List.length_append, List.length_cons, List.length_nil, hu]
  obtain ⟨w0, hs0, hrd0, hp⟩ := process_recv dbg fuel rng secs c hl.receives hat hl.tx hi (by show p + 5 ≤ (w.chip.received c.sn.toU8.toNat).length; omega)
  have hlt := u16_lt c.recordSizeLimit
  obtain ⟨k, hk, hk2, hk3⟩ : ∃ k, ContentType.tryFrom type = .ok k ∧ k ≠ .applicationData ∧ k ≠ .handshake := by
    simp only [List.mem_cons, List.not_mem_nil, or_false] at ht
    rcases ht with rfl | rfl
    · exact ⟨.changeCipherSpec, rfl, by decide, by decide⟩
    · exact ⟨.alert, rfl, by decide, by decide⟩
  rcases recv_plain dbg fuel secs c _ body k hs0 hrd0 rfl htake hk hk2 (u16_value body.length (by omega))
    hb0 hlim hl.holds hfit with ⟨w', hdbg, e⟩ | ⟨w1, rx1, hs1, -, hq1, -, e⟩
  · left
    refine ⟨hdbg, ?_⟩
    show (process dbg fuel worldBus rng secs (w, c)).1 = _
    rw [hp, X.bind_error e]
  right
  have e2 : recv dbg fuel worldBus secs (w0, c) = failFatal worldBus .unexpectedMessage secs (w1, { c with rx := rx1 }) := by
    rw [e]
    unfold recvRecord
    rw [hl.holds.fragment hl.some, if_pos ⟨rfl, hk3⟩]
  show Aborted _ w c (process dbg fuel worldBus rng secs (w, c))
  rw [hp]
  exact aborted_of hx dbg secs _ hs1 hl.keys e2

/-- C98, the same for protected records: with application data, an alert or a `change_cipher_spec` inside. -/
theorem C98_between_protected (hx : x.Standard) (dbg : Bool) (fuel : Nat) (rng : Rng x) (secs : UInt32) (w : World) (c : Client x) (p : Nat)
    (unread part t : Bytes) (hl : Partway w c p unread part) (hi : Quiet w c) (ht : c.ks.serverTraffic = some t) (type : UInt8) (content : Bytes)
    (hty : type ∈ [20, 21, 23])
    (ha : Spec.Tls.protect t c.ks.readSeq.toNat type content <+: (w.chip.received c.sn.toU8.toNat).drop p)
    (hfit : unread.length + part.length + content.length + 1 ≤ c.rx.n - 1) (hlim : content.length + 17 ≤ c.recordSizeLimit.toNat) :
    let r := process dbg fuel worldBus rng secs (w, c)
    (dbg = true ∧ r.1 = .error (.stop .panic)) ∨ Aborted .unexpectedMessage w c r := by
  intro r
  obtain ⟨header, record, e1, ⟨v1, v2, hh⟩, e3, e4⟩ := protect_opens t c.ks.readSeq.toNat type content
  rw [e1] at ha
  obtain ⟨base, hat⟩ := hl.rx.at
  have h5 : header.length = 5 := by rw [hh]; rfl
  have hlt := u16_lt c.recordSizeLimit
  have hpl := ha.length_le
  rw [List.length_append, List.length_drop, h5] at hpl
  have htake : ((w.chip.received c.sn.idx).drop p).take (5 + record.length) = header ++ record := by
    have := List.prefix_iff_eq_take.mp ha
    rw [List.length_append, h5] at this
    exact this.symm
  obtain ⟨w0, hs0, hrd0, hp⟩ := process_recv dbg fuel rng secs c hl.receives hat hl.tx hi (by show p + 5 ≤ (w.chip.received c.sn.toU8.toNat).length; omega)
  obtain ⟨k, hk, hk3⟩ : ∃ k, ContentType.tryFrom type = .ok k ∧ k ≠ .handshake := by
    simp only [List.mem_cons, List.not_mem_nil, or_false] at hty
    rcases hty with rfl | rfl | rfl
    · exact ⟨.changeCipherSpec, rfl, by decide⟩
    · exact ⟨.alert, rfl, by decide⟩
    · exact ⟨.applicationData, rfl, by decide⟩
  rcases recv_fragment hx dbg fuel secs c header record t _ type k hs0 hrd0 h5 htake (by rw [hh]; rfl)
    (by rw [hh]; exact u16_value record.length (by omega)) (by omega) (by omega) hl.holds hl.some (by omega) ht e4 List.getLast?_concat hk hk3 with
    ⟨s', hdbg, e⟩ | ⟨w1, rx1, hs1, -, e⟩
  · left
    refine ⟨hdbg, ?_⟩
    show (process dbg fuel worldBus rng secs (w, c)).1 = _
    rw [hp, X.bind_error e]
  right
  show Aborted _ w c (process dbg fuel worldBus rng secs (w, c))
  rw [hp]
  exact aborted_of hx dbg secs _ hs1 hl.keys e

/-- C98, `change_cipher_spec` with the byte 1, that servers send for compatibility (RFC 8446 appendix D.4): it is dropped, and nothing else happens. -/
theorem C98_ccs_dropped (dbg : Bool) (fuel : Nat) (rng : Rng x) (secs : UInt32) (w : World) (c : Client x) (p : Nat)
    (unread : Bytes) (hl : Listens w c p unread) (hf : c.state ≠ .sendFinished) (hi : Quiet w c) (v1 v2 : UInt8)
    (ha : [20, v1, v2, 0, 1, 1] <+: (w.chip.received c.sn.toU8.toNat).drop p)
    (hfit : unread.length + 1 ≤ c.rx.n - 1) (hlim : 1 ≤ c.recordSizeLimit.toNat) (ht : ∀ t0, c.timeout = some t0 → t0.toNat ≤ secs.toNat) :
    let r := process dbg fuel worldBus rng secs (w, c)
    (dbg = true ∧ r.1 = .error (.stop .panic)) ∨
    (∃ rx : Buffer, WaitsOrGivesUp { c with rx } secs r.1 r.2.2 ∧ Listens r.2.1 { c with rx } (p + 6) unread ∧ r.2.1.chip.sent = w.chip.sent) := by
  intro r
  obtain ⟨base, hat⟩ := hl.rx.at
  have hpl := ha.length_le
  rw [List.length_drop] at hpl
  simp only [List.length_cons, List.length_nil] at hpl
  have htake : ((w.chip.received c.sn.idx).drop p).take (5 + 1) = [20, v1, v2, 0, 1] ++ [1] := (List.prefix_iff_eq_take.mp ha).symm
  have hwd : c.state ≠ .waitDiscon := by
    intro h
    have := hl.state
    rw [h] at this
    exact this (by decide)
  obtain ⟨w0, hs0, hrd0, hp⟩ := process_recv dbg fuel rng secs c hl.receives hat hl.tx hi (by show p + 5 ≤ (w.chip.received c.sn.toU8.toNat).length; omega)
  rcases recv_plain dbg fuel secs c [20, v1, v2, 0, 1] [1] .changeCipherSpec hs0 hrd0 rfl htake rfl (by decide) (by show (be16 0 1).toNat = 1; decide)
    (by show 0 < 1; decide) hlim hl.holds (by simpa using hfit) with ⟨w', hdbg, e⟩ | ⟨w1, rx1, hs1, hrd1, hq1, -, e⟩
  · left
    refine ⟨hdbg, ?_⟩
    show (process dbg fuel worldBus rng secs (w, c)).1 = _
    rw [hp, X.bind_error e]
  right
  obtain ⟨rx2, p2, hq2⟩ := hq1.pop (by simp)
  have p2' : rx1.popTail = some (1, rx2) := p2
  have e2 : recv dbg fuel worldBus secs (w0, c) = (.ok none, (w1, { c with rx := rx2 })) := by
    rw [e]
    unfold recvRecord
    rw [QRel.pop_none (show QRel c.rx ⟨_, _, []⟩ from hl.holds), if_neg (by simp), if_neg (by decide)]
    have e3 : recvChangeCipherSpec (toHeader [20, v1, v2, 0, 1]) (w1, { c with rx := rx1 }) = (.ok (), (w1, { c with rx := rx2 })) := by
      unfold recvChangeCipherSpec
      rw [if_neg (by show ¬ be16 0 1 ≠ 1; decide), X.bind_ok (onRx_popTail (c := { c with rx := rx1 }) p2')]
      rfl
    have e4 : recvContent fuel worldBus secs (toHeader [20, v1, v2, 0, 1]) .changeCipherSpec (w1, { c with rx := rx1 })
        = (.ok none, (w1, { c with rx := rx2 })) := by
      unfold recvContent
      dsimp only
      rw [X.bind_ok (orFatal_ok e3)]
      rfl
    rw [X.bind_ok (X.attempt_ok e4)]
    rfl
  obtain ⟨res, c', e5, hw⟩ := afterRecv_waits dbg secs w1 { c with rx := rx2 } hf hwd ht
  have he : r = (res, (w1, c')) := by
    show process dbg fuel worldBus rng secs (w, c) = _
    rw [hp, X.bind_ok e2]
    exact e5
  rw [he]
  have hn : rx2.n = c.rx.n := by
    have h1 := hq2.n_eq
    have h2 := QRel.n_eq (show QRel c.rx ⟨_, _, []⟩ from hl.holds)
    have h3 : c.rx.n = c.rx.buf.length := rfl
    have h4 : rx2.n = rx2.buf.length := rfl
    have h5 := hq2.cap
    have h6 := (show QRel c.rx ⟨_, _, []⟩ from hl.holds).cap
    simp only at h5 h6
    omega
  refine ⟨rx2, hw, ⟨hl.state, ?_, RxAt.state ⟨hs1.rx, hrd1⟩, hs1.tx⟩, hs1.sent⟩
  show QRel rx2 ⟨rx2.n - 1, unread, []⟩
  rw [hn]
  exact hq2

/-- C98, any other `change_cipher_spec`: with another byte it aborts the connection with `unexpected_message`, with another length with `decode_error`. -/
theorem C98_ccs_refused (hx : x.Standard) (dbg : Bool) (fuel : Nat) (rng : Rng x) (secs : UInt32) (w : World) (c : Client x) (p : Nat)
    (unread : Bytes) (hl : Listens w c p unread) (hk : c.ks.serverTraffic.isSome → c.ks.clientTraffic.isSome) (hi : Quiet w c) (v1 v2 : UInt8)
    (body : Bytes) (hb : body ≠ [1]) (hb0 : body ≠ [])
    (ha : [20, v1, v2] ++ Spec.Tls.u16 body.length ++ body <+: (w.chip.received c.sn.toU8.toNat).drop p)
    (hfit : unread.length + body.length ≤ c.rx.n - 1) (hlim : body.length ≤ c.recordSizeLimit.toNat) :
    let r := process dbg fuel worldBus rng secs (w, c)
    (dbg = true ∧ r.1 = .error (.stop .panic)) ∨
    Aborted (if body.length = 1 then .unexpectedMessage else .decodeError) w c r := by
  intro r
  obtain ⟨base, hat⟩ := hl.rx.at
  have hpl := ha.length_le
  have hu : (Spec.Tls.u16 body.length).length = 2 := rfl
  rw [List.length_drop] at hpl
  simp only [List.length_append, List.length_cons, List.length_nil, hu] at hpl
  have hb1 : 0 < body.length := List.length_pos_iff.mpr hb0
  have hlt := u16_lt c.recordSizeLimit
  have htake : ((w.chip.received c.sn.idx).drop p).take (5 + body.length) = ([20, v1, v2] ++ Spec.Tls.u16 body.length) ++ body := by
    have := List.prefix_iff_eq_take.mp ha
    rw [this]
    congr 1
    simp only [List.length_append, List.length_cons, List.length_nil, hu]
  obtain ⟨w0, hs0, hrd0, hp⟩ := process_recv dbg fuel rng secs c hl.receives hat hl.tx hi (by show p + 5 ≤ (w.chip.received c.sn.toU8.toNat).length; omega)
  have hval := u16_value body.length (by omega)
  rcases recv_plain dbg fuel secs c ([20, v1, v2] ++ Spec.Tls.u16 body.length) body .changeCipherSpec hs0 hrd0 rfl htake rfl (by decide) hval
    hb1 hlim hl.holds (by simpa using hfit) with ⟨w', hdbg, e⟩ | ⟨w1, rx1, hs1, -, hq1, -, e⟩
  · left
    refine ⟨hdbg, ?_⟩
    show (process dbg fuel worldBus rng secs (w, c)).1 = _
    rw [hp, X.bind_error e]
  right
  have hlenEq : (toHeader ([20, v1, v2] ++ Spec.Tls.u16 body.length)).length.toNat = body.length := hval
  -- how the content fails
  have key : ∃ rx2, recvChangeCipherSpec (toHeader ([20, v1, v2] ++ Spec.Tls.u16 body.length)) (w1, { c with rx := rx1 })
      = (.error (.err (if body.length = 1 then .unexpectedMessage else .decodeError)), (w1, { c with rx := rx2 })) := by
    unfold recvChangeCipherSpec
    by_cases h1 : body.length = 1
    · obtain ⟨y, rfl⟩ := List.length_eq_one_iff.mp h1
      obtain ⟨rx2, p2, -⟩ := hq1.pop (by simp)
      have p2' : rx1.popTail = some (y, rx2) := p2
      refine ⟨rx2, ?_⟩
      rw [if_neg (by
        intro h
        refine h (UInt16.toNat_inj.mp (hlenEq.trans ?_))
        rfl), X.bind_ok (onRx_popTail (c := { c with rx := rx1 }) p2')]
      dsimp only
      rw [if_pos (by intro h; exact hb (by rw [h])), if_pos h1]
      rfl
    · refine ⟨rx1, ?_⟩
      rw [if_pos (by
        intro h
        rw [h] at hlenEq
        exact h1 hlenEq.symm), if_neg h1]
      rfl
  obtain ⟨rx2, e3⟩ := key
  have e2 : recv dbg fuel worldBus secs (w0, c)
      = failFatal worldBus (if body.length = 1 then .unexpectedMessage else .decodeError) secs (w1, { c with rx := rx2 }) := by
    rw [e]
    unfold recvRecord
    rw [QRel.pop_none (show QRel c.rx ⟨_, _, []⟩ from hl.holds), if_neg (by simp), if_neg (by decide)]
    obtain ⟨w2, c2, f, -⟩ := failFatal_run (α := Unit) hx { c with rx := rx2 } (if body.length = 1 then .unexpectedMessage else .decodeError) secs hs1.tx hk
    obtain ⟨w3, c3, f', -⟩ := failFatal_run (α := Option TEvent) hx { c with rx := rx2 } (if body.length = 1 then .unexpectedMessage else .decodeError) secs hs1.tx hk
    have hcc : (failFatal worldBus (if body.length = 1 then .unexpectedMessage else .decodeError) secs >>= fun _ : Unit => (pure none : X TErr (World × Client x) (Option TEvent)))
        (w1, { c with rx := rx2 }) = failFatal worldBus (if body.length = 1 then .unexpectedMessage else .decodeError) secs (w1, { c with rx := rx2 }) :=
      congrFun (failFatal_bind worldBus _ secs _) _
    have e4 : recvContent fuel worldBus secs (toHeader ([20, v1, v2] ++ Spec.Tls.u16 body.length)) .changeCipherSpec (w1, { c with rx := rx1 })
        = failFatal worldBus (if body.length = 1 then .unexpectedMessage else .decodeError) secs (w1, { c with rx := rx2 }) := by
      unfold recvContent
      dsimp only
      rw [← hcc, X.bind_run, orFatal_err e3, ← X.bind_run]
    rw [f'] at e4
    rw [f', X.bind_ok (X.attempt_err e4)]
    rfl
  show Aborted _ w c (process dbg fuel worldBus rng secs (w, c))
  rw [hp]
  exact aborted_of hx dbg secs _ hs1 hk e2

namespace Witness

/-- The connected client after three of the bytes of a NewSessionTicket. -/
def cPart : Client X := { c5 with rx := { c5.rx with buf := writeAt c5.rx.buf c5.rx.tail [4, 0, 0], tail := c5.rx.tail + 3 } }

theorem partway (data : Bytes) (h : data.length ≤ 2048) : Partway (Thm.tcpWorld 0 data) cPart 0 [] [4, 0, 0] where
  state := by decide
  holds := by
    have h1 : cPart.rx.n = 1024 := by decide +kernel
    refine ⟨?_, ?_, ?_, ?_, ?_, ?_, ?_⟩
    all_goals decide +kernel
  some := by decide
  keys := fun _ => rfl
  rx := tcpWorld_rx 0 data h
  tx := tcpWorld_tx 0 data

/-- Application data between the parts of a handshake message. -/
example : Aborted .unexpectedMessage (Thm.tcpWorld 0 (Spec.Tls.protect serverApp 0 23 [104, 105])) cPart
    (process false 3 worldBus rng 0 (Thm.tcpWorld 0 (Spec.Tls.protect serverApp 0 23 [104, 105]), cPart)) :=
  (C98_between_protected standard false 3 rng 0 _ cPart 0 [] [4, 0, 0] serverApp (partway _ (record_length _ _ _ _ (by decide))) (peace _).quiet rfl 23
    [104, 105] (by decide) List.prefix_rfl (by decide +kernel) (by decide +kernel)).resolve_left (fun h => absurd h.1 (by decide))

/-- A `change_cipher_spec` between them. -/
example : Aborted .unexpectedMessage (Thm.tcpWorld 0 [20, 3, 3, 0, 1, 1]) cPart (process false 3 worldBus rng 0 (Thm.tcpWorld 0 [20, 3, 3, 0, 1, 1], cPart)) :=
  (C98_between_plain standard false 3 rng 0 _ cPart 0 [] [4, 0, 0] (partway _ (by decide)) (peace _).quiet 20 3 3 [1] (by decide) (by decide)
    List.prefix_rfl (by decide +kernel) (by decide +kernel)).resolve_left (fun h => absurd h.1 (by decide))

/-- A `change_cipher_spec` after the ClientHello. -/
example : (process false 3 worldBus rng 2 (Thm.tcpWorld 0 [20, 3, 3, 0, 1, 1], c2)).1 = .ok (.callAfter 8) := by
  obtain ⟨rx, h, -⟩ := (C98_ccs_dropped false 3 rng 2 _ c2 0 [] (listens2 _ (by decide)) (by decide) (by show Spec.Mqtt.quiet 0 = true; decide) 3 3
    List.prefix_rfl (by decide +kernel) (by decide +kernel) (by intro t0 h; cases h; decide)).resolve_left (fun h => absurd h.1 (by decide))
  exact h.1

/-- With another byte. -/
example : Aborted .unexpectedMessage (Thm.tcpWorld 0 [20, 3, 3, 0, 1, 2]) c2 (process false 3 worldBus rng 0 (Thm.tcpWorld 0 [20, 3, 3, 0, 1, 2], c2)) :=
  (C98_ccs_refused standard false 3 rng 0 _ c2 0 [] (listens2 _ (by decide)) (by intro h; cases h) (by show Spec.Mqtt.quiet 0 = true; decide) 3 3 [2]
    (by decide) (by decide) List.prefix_rfl (by decide +kernel) (by decide +kernel)).resolve_left (fun h => absurd h.1 (by decide))

end Witness

end Verif.Tls
