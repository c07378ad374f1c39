import Verif.Thm.TlsReceive
import Verif.Proof.TlsPlain
import Verif.Thm.TlsWitness
/-!
# C60 and C88: alerts
-/
namespace Verif.Tls
open Verif Hl
open _root_.Verif.Spec (World worldBus TxState RxState Queue)

variable {σ α β : Type} {x : Crypto}

/-- An alert that the client reports as its own: with level `Warning`, and then an alert was prepared for the peer (it waits until the alert is sent, or
disconnects); or the answer to an alert that cannot be parsed. -/
def Reported : TErr → Client x → Prop
  | .client a, c => (a.level = .warning ∧ (c.state = .waitAlertSendOk ∨ c.state = .sendDiscon)) ∨ a = ⟨.fatal, .decodeError⟩
  | _, _ => True

/-- All errors of a computation are such. -/
def Errs (m : X TErr (σ × Client x) α) : Prop := ∀ s e s', m s = (.error (.err e), s') → Reported e s'.2

namespace Errs

theorem bind {m : X TErr (σ × Client x) β} {f : β → X TErr (σ × Client x) α} (hm : Errs m) (hf : ∀ b, Errs (f b)) : Errs (m >>= f) := by
  intro s e s' h
  rw [X.bind_run] at h
  rcases hr : m s with ⟨(e1 | e1 | _) | a, s1⟩ <;> rw [hr] at h
  · cases h; exact hm _ _ _ hr
  · cases h
  · cases h
  · exact hf a _ _ _ h

theorem pure (a : α) : Errs (Pure.pure a : X TErr (σ × Client x) α) := fun _ _ _ h => by cases h
theorem get : Errs (getC : X TErr (σ × Client x) _) := fun _ _ _ h => by cases h
theorem mod (f : Client x → Client x) : Errs (modC f : X TErr (σ × Client x) _) := fun _ _ _ h => by cases h
theorem attempt {ε : Type} (m : X ε (σ × Client x) α) : Errs (m.attempt : X TErr (σ × Client x) _) := by
  intro s e s' h
  unfold X.attempt at h
  rcases hm : m s with ⟨(e | e | _) | a, s'⟩ <;> rw [hm] at h <;> cases h
theorem cipher (r : Except Err α) : Errs (ofCipher r : X TErr (σ × Client x) α) := by
  intro s e s' h
  match r with
  | .ok _ => cases h
  | .error _ => cases h
theorem stop (e : Err) : Errs (X.ofExcept (.error (.stop e)) : X TErr (σ × Client x) α) := fun _ _ _ h => by cases h
theorem throw (e : TErr) (h : ∀ c : Client x, Reported e c) : Errs (X.throw e : X TErr (σ × Client x) α) := fun _ _ _ hh => by cases hh; exact h _
theorem ite {p : Prop} [Decidable p] {m m' : X TErr (σ × Client x) α} (h : Errs m) (h' : Errs m') : Errs (if p then m else m') := by
  split
  · exact h
  · exact h'

theorem popTail : Errs (onRx popTailRx : X TErr (σ × Client x) _) := by
  intro s e s' h
  unfold onRx popTailRx at h
  cases hp : s.2.rx.popTail with
  | none => rw [hp] at h; cases h
  | some y => rw [hp] at h; cases h

theorem fatal (b : Bus σ) (d : AlertDescription) (secs : UInt32) : Errs (failFatal b d secs : X TErr (σ × Client x) α) := by
  intro s e s' h
  unfold failFatal sendAlert at h
  simp only [bind_assoc] at h
  rw [X.bind_run] at h
  rcases hr : (trySendAlert b .fatal d).attempt s with ⟨(e1 | e1 | _) | r, s1⟩ <;>
    rw [show ((trySendAlert b .fatal d).attempt : X TErr (σ × Client x) _) s = _ from hr] at h
  · exact absurd hr (by
      intro hr
      unfold X.attempt at hr
      rcases hm : trySendAlert b .fatal d s with ⟨(e | e | _) | a, s'⟩ <;> rw [hm] at hr <;> cases hr)
  · cases h
  · cases h
  · cases r with
    | error _ => cases h; exact .inl ⟨rfl, .inr rfl⟩
    | ok _ => cases h; exact .inl ⟨rfl, .inl rfl⟩

theorem orFatal (b : Bus σ) (secs : UInt32) (m : X AlertDescription (σ × Client x) α) : Errs (orFatal b secs m) := by
  refine (attempt m).bind fun r => ?_
  cases r with
  | ok a => exact pure a
  | error e => exact fatal b e secs

theorem alertLevel (d : AlertDescription) : Errs (recvAlertLevel d : X TErr (σ × Client x) α) := by
  refine popTail.bind fun y => (mod _).bind fun _ => ?_
  cases y with
  | none => exact throw _ fun _ => .inr rfl
  | some y => exact throw _ fun _ => trivial

theorem alert (dbg : Bool) (b : Bus σ) (header : RecordHeader) : Errs (failAlert dbg b header : X TErr (σ × Client x) α) := by
  refine (mod _).bind fun _ => ite ?_ ?_
  · exact (mod _).bind fun _ => get.bind fun c => (attempt _).bind fun _ => throw _ fun _ => .inr rfl
  · refine popTail.bind fun y => ?_
    cases y with
    | none => exact (mod _).bind fun _ => throw _ fun _ => .inr rfl
    | some y =>
      dsimp only
      split
      · exact throw _ fun _ => .inr rfl
      · exact alertLevel _

theorem encryptedBody (dbg : Bool) (b : Bus σ) (secs : UInt32) (header : RecordHeader) :
    Errs (recvEncryptedBody dbg b secs header : X TErr (σ × Client x) _) := by
  refine get.bind fun c => ?_
  split
  · exact fatal _ _ _
  · refine (orFatal _ _ _).bind fun ct => ?_
    cases ct with
    | ok ct => exact pure _
    | error _ => exact fatal _ _ _

theorem body (dbg : Bool) (b : Bus σ) (secs : UInt32) (header : RecordHeader) (outer : ContentType) :
    Errs (recvBody dbg b secs header outer : X TErr (σ × Client x) _) :=
  ite (encryptedBody _ _ _ _) ((orFatal _ _ _).bind fun _ => pure _)

theorem appData (dbg : Bool) (header : RecordHeader) (ct : ContentType) : Errs (countAppData dbg header ct : X TErr (σ × Client x) _) :=
  ite (get.bind fun _ => (cipher _).bind fun _ => mod _) (pure _)

theorem content (fuel : Nat) (b : Bus σ) (secs : UInt32) (header : RecordHeader) (ct : ContentType) :
    Errs (recvContent fuel b secs header ct : X TErr (σ × Client x) _) := by
  unfold recvContent
  split
  · exact (orFatal _ _ _).bind fun _ => pure _
  · exact (orFatal _ _ _).bind fun _ => pure _
  · exact get.bind fun _ => ite (pure _) (fatal _ _ _)

theorem countRead_state (outer : ContentType) (s s' : σ × Client x) (h : countRead outer s = (.ok (), s')) : s'.2.state = s.2.state := by
  unfold countRead at h
  split at h
  · rw [X.bind_run, getC_run] at h
    dsimp only at h
    rw [X.bind_run] at h
    cases hk : s.2.ks.incrementReadSeq with
    | error e => rw [hk] at h; cases h
    | ok k => rw [hk] at h; cases h; rfl
  · cases h; rfl

theorem record (dbg : Bool) (fuel : Nat) (b : Bus σ) (secs : UInt32) (header : RecordHeader) (outer ct : ContentType) (fragment : Bool) :
    Errs (recvRecord dbg fuel b secs header outer ct fragment : X TErr (σ × Client x) _) := by
  refine ite (fatal _ _ _) (ite (alert _ _ _) ?_)
  intro s e s' h
  rw [X.bind_run] at h
  rcases hr : recvContent fuel b secs header ct s with ⟨(e1 | e1 | _) | r, s1⟩
  · rw [X.attempt_err hr] at h
    dsimp only at h
    rw [X.bind_run] at h
    rcases hc : countRead outer s1 with ⟨(e2 | e2 | _) | r2, s2⟩ <;> rw [hc] at h
    · exact absurd hc (by
        unfold countRead
        intro hc
        split at hc
        · rw [X.bind_run, getC_run] at hc
          dsimp only at hc
          rw [X.bind_run] at hc
          cases hk : s1.2.ks.incrementReadSeq with
          | error e => rw [hk] at hc; cases hc
          | ok k => rw [hk] at hc; cases hc
        · cases hc)
    · cases h
    · cases h
    · cases h
      have h1 := content fuel b secs header ct _ _ _ hr
      have h2 := countRead_state outer _ _ hc
      cases e with
      | client a =>
        rcases h1 with ⟨h1, h3⟩ | h1
        · exact .inl ⟨h1, by rw [h2]; exact h3⟩
        · exact .inr h1
      | _ => trivial
  · unfold X.attempt at h; rw [hr] at h; cases h
  · unfold X.attempt at h; rw [hr] at h; cases h
  · rw [X.attempt_ok hr] at h
    dsimp only at h
    rw [X.bind_run] at h
    rcases hc : countRead outer s1 with ⟨(e2 | e2 | _) | r2, s2⟩ <;> rw [hc] at h
    · exact absurd hc (by
        unfold countRead
        intro hc
        split at hc
        · rw [X.bind_run, getC_run] at hc
          dsimp only at hc
          rw [X.bind_run] at hc
          cases hk : s1.2.ks.incrementReadSeq with
          | error e => rw [hk] at hc; cases hc
          | ok k => rw [hk] at hc; cases hc
        · cases hc)
    · cases h
    · cases h
    · cases h

theorem recv (dbg : Bool) (fuel : Nat) (b : Bus σ) (secs : UInt32) : Errs (recv dbg fuel b secs : X TErr (σ × Client x) _) := by
  refine (orFatal _ _ _).bind fun h => ?_
  cases h with
  | none => exact pure _
  | some header =>
    refine get.bind fun c => ?_
    split
    · exact stop _
    · exact (body _ _ _ _ _).bind fun _ => (appData _ _ _).bind fun _ => record _ _ _ _ _ _ _ _

theorem timeout (dbg : Bool) (secs : UInt32) : Errs (checkTimeout dbg secs : X TErr (σ × Client x) _) := by
  refine get.bind fun c => (cipher _).bind fun e => ?_
  cases e with
  | none => exact pure _
  | some e => exact ite ((mod _).bind fun _ => throw _ fun _ => trivial) (pure _)

theorem after (dbg : Bool) (b : Bus σ) (secs : UInt32) : Errs (afterRecv dbg b secs : X TErr (σ × Client x) _) :=
  get.bind fun _ => ite ((orFatal _ _ _).bind fun _ => pure _) (timeout _ _)

theorem records (dbg : Bool) (fuel : Nat) (b : Bus σ) (secs : UInt32) : Errs (receiveRecords dbg fuel b secs : X TErr (σ × Client x) _) := by
  refine get.bind fun c => ite (timeout _ _) ((orFatal _ _ _).bind fun rsr => ite ((recv _ _ _ _).bind fun e => ?_) (after _ _ _))
  cases e with
  | none => exact after _ _ _
  | some e => exact pure _

theorem state (dbg : Bool) (fuel : Nat) (b : Bus σ) (secs : UInt32) : Errs (onState dbg fuel b secs : X TErr (σ × Client x) _) := by
  refine get.bind fun c => ?_
  split
  · exact (orFatal _ _ _).bind fun _ => pure _
  · exact (orFatal _ _ _).bind fun _ => (mod _).bind fun _ => pure _
  · exact records _ _ _ _

theorem interrupt (dbg : Bool) (fuel : Nat) (b : Bus σ) (secs : UInt32) (ir : SocketInterrupt) :
    Errs (onInterrupt dbg fuel b secs ir : X TErr (σ × Client x) _) :=
  get.bind fun _ => ite (ite ((mod _).bind fun _ => pure _) (throw _ fun _ => trivial)) (ite ((mod _).bind fun _ => throw _ fun _ => trivial)
    (ite ((mod _).bind fun _ => pure _) (state _ _ _ _)))

theorem process (dbg : Bool) (fuel : Nat) (b : Bus σ) (rng : Rng x) (secs : UInt32) :
    Errs (process dbg fuel b rng secs : X TErr (σ × Client x) _) := by
  refine get.bind fun c => (attempt _).bind fun ir => ?_
  cases ir with
  | error _ => exact state _ _ _ _
  | ok ir =>
    exact ite (get.bind fun _ => (orFatal _ _ _).bind fun _ => ite ((orFatal _ _ _).bind fun _ => interrupt _ _ _ _ _) (interrupt _ _ _ _ _))
      (state _ _ _ _)

end Errs

/-- C60 does not hold: on every bus and from every state, when the client ends a connection with an error of its own, it reports level `Warning`,
although the alert on the wire is fatal (see below); the only alert reported as `Fatal` is the one for an alert of the server that the client
cannot parse, and that one is never sent. -/
theorem C60_aborts_are_reported_as_warnings {σ : Type} (dbg : Bool) (fuel : Nat) (b : Bus σ) (rng : Rng x) (secs : UInt32) (s s' : σ)
    (c c' : Client x) (a : Alert) (h : process dbg fuel b rng secs (s, c) = (.error (.err (.client a)), (s', c'))) :
    (a.level = .warning ∧ (c'.state = .waitAlertSendOk ∨ c'.state = .sendDiscon)) ∨ a = { level := .fatal, description := .decodeError } :=
  Errs.process dbg fuel b rng secs _ _ _ h

/-- C60, for a record with a wrong tag: the description that is reported is the one on the wire; the level on the wire is fatal (2), the level
reported is `Warning`. -/
theorem C60_forgery_partial (hx : x.Standard) (dbg : Bool) (fuel : Nat) (rng : Rng x) (secs : UInt32) (w : World) (c : Client x) (t : Bytes)
    (p : Nat) (unread header record : Bytes) (hr : Ready w c t p unread) (hi : Quiet w c) (ha : Arrived w c p unread header record)
    (hu : Spec.Tls.unprotect t c.ks.readSeq.toNat header record = none) :
    let r := process dbg fuel worldBus rng secs (w, c)
    (dbg = true ∧ r.1 = .error (.stop .panic)) ∨
    (r.1 = .error (.err (.client { level := .warning, description := .badRecordMac })) ∧ ∃ alerts : List Bytes,
        r.2.1.chip.sent.map (·.payload) = w.chip.sent.map (·.payload) ++ alerts ∧
        ∀ a ∈ alerts, ∃ k, c.ks.clientTraffic = some k ∧ a = Spec.Tls.protect k c.ks.writeSeq.toNat 21 [2, 20]) := by
  intro r
  rcases C83_forgery hx dbg fuel rng secs w c t p unread header record hr hi ha hu with h | ⟨⟨a, h1, h2⟩, -, -, -, h3⟩
  · exact .inl h
  · right
    refine ⟨?_, h3⟩
    have h4 := C60_aborts_are_reported_as_warnings dbg fuel worldBus rng secs w r.2.1 c r.2.2 a (Prod.ext h1 rfl)
    rw [show r.1 = _ from h1]
    rcases h4 with ⟨h4, -⟩ | h4
    · congr 3
      cases a
      simp only at h2 h4
      rw [h2, h4]
    · rw [h4] at h2
      cases h2

/-! ## The nonce of an alert -/

/-- What two records that were protected with the same sequence number reveal. -/
theorem protect_xor (t : Bytes) (n : Nat) (y z : UInt8) (a b : Bytes) :
    (List.zipWith (· ^^^ ·) ((Spec.Tls.protect t n y a).drop 5) ((Spec.Tls.protect t n z b).drop 5)).take (min a.length b.length)
      = List.zipWith (· ^^^ ·) a b := by
  have hd : ∀ (d : Bytes) (v : UInt8), (Spec.Tls.protect t n v d).drop 5
      = Spec.Gcm.crypt (Spec.Tls.recordCipher t) (Spec.Tls.recordNonce t n) (d ++ [v]) ++
        Spec.Gcm.tag (Spec.Tls.recordCipher t) (Spec.Tls.recordNonce t n) (Spec.Tls.protectedHeader (d.length + 1 + 16))
          (Spec.Gcm.crypt (Spec.Tls.recordCipher t) (Spec.Tls.recordNonce t n) (d ++ [v])) := by
    intro d v
    unfold Spec.Tls.protect Spec.Gcm.ae
    dsimp only
    rw [List.append_assoc, List.drop_left' (by simp [Spec.Tls.protectedHeader, u16_len])]
  rw [hd, hd, List.take_zipWith, List.take_append_of_le_length (by rw [crypt_length, List.length_append]; omega),
    List.take_append_of_le_length (by rw [crypt_length, List.length_append]; omega), ← List.take_zipWith, crypt_xor,
    List.take_zipWith, List.take_append_of_le_length (by omega), List.take_append_of_le_length (by omega),
    ← List.take_zipWith]
  exact List.take_of_length_le (by rw [List.length_zipWith])

/-- **C52 is false for alerts too.** When a connected client that has sent data with `Client::write_all` ends the connection with a fatal alert, for
whatever reason, the alert is protected with the same key and the same nonce as the data. The alert is known to everybody who can guess the reason, and so
the first two bytes of the data can be computed from the two records. (Between the two the peer acknowledges the data, to make room.) -/
theorem C52_alert_reuses_the_nonce {α : Type} (hx : x.Standard) (w : World) (c : Client x) (t a : Bytes) (d : AlertDescription) (secs : UInt32)
    (h : TxState w.chip c.sn.idx) (ht : c.ks.clientTraffic = some t) (hs : c.ks.serverTraffic.isSome) (hc : c.connected = true)
    (ha : a.length + 22 ≤ w.chip.txFsr c.sn.idx) (hb : 24 ≤ w.chip.txSize c.sn.idx) :
    let n := c.ks.writeSeq.toNat
    ∃ w1 w2 c2, tlsWriteAll worldBus a (w, c) = (.ok (), (w1, c)) ∧
      (failFatal worldBus d secs : X TErr (World × Client x) α)
          ({ w1 with chip := w1.chip.envStep (.free c.sn.idx (w1.chip.txSize c.sn.idx)) }, c)
        = (.error (.err (.client (Alert.newFatal d))), (w2, c2)) ∧
      w2.chip.sent.map (·.payload)
        = w.chip.sent.map (·.payload) ++ [Spec.Tls.protect t n 23 a, Spec.Tls.protect t n 21 [2, d.code]] ∧
      (List.zipWith (· ^^^ ·) ((Spec.Tls.protect t n 23 a).drop 5) ((Spec.Tls.protect t n 21 [2, d.code]).drop 5)).take
        (min a.length 2) = List.zipWith (· ^^^ ·) a [2, d.code] := by
  intro n
  have hsz := h.size_lt
  have hfl := h.fsr_le
  rcases C81_write_all hx w c t a h ht hc (by omega) with ⟨w1, e1, e2, e3, e4⟩ | ⟨_, _, _, e⟩
  · obtain ⟨f1, f2, f3⟩ := txState_free e2
    have hr : alertRecord c.ks .fatal d = Spec.Tls.protect t n 21 [2, d.code] := by
      obtain ⟨u, hu⟩ := Option.isSome_iff_exists.mp hs
      unfold alertRecord
      rw [hu, ht]
      rfl
    obtain ⟨w2, c2, g1, -, -, -, -, g | g⟩ := failFatal_run (α := α) hx
      (w := { w1 with chip := w1.chip.envStep (.free c.sn.idx (w1.chip.txSize c.sn.idx)) }) c d secs f1 (fun _ => by rw [ht]; rfl)
    · refine ⟨w1, w2, c2, e1, g1, ?_, protect_xor t n 23 21 a [2, d.code]⟩
      rw [g.2, f3, e4, hr]
      simp only [List.map_append, List.map_cons, List.map_nil, List.append_assoc, List.cons_append, List.nil_append]
      rfl
    · exfalso
      have := g.2.2
      rw [hr, protect_length] at this
      dsimp only at this
      rw [f2] at this
      simp at this
      omega
  · omega

/-! ## Alerts of the server -/

/-- A client that receives records: byte `p` of the stream is the next, and no part of a handshake message has arrived. -/
structure Listens (w : World) (c : Client x) (p : Nat) (unread : Bytes) : Prop where
  state : c.state ∉ [.reset, .sendDiscon, .waitAlertSendOk, .waitDiscon]
  holds : Holds c unread
  rx : RxState w.chip c.sn.toU8.toNat p
  tx : TxState w.chip c.sn.toU8.toNat

theorem Listens.receives {w : World} {c : Client x} {p : Nat} {unread : Bytes} (h : Listens w c p unread) : c.state.receives = true := by
  have := h.state
  cases hs : c.state <;> rw [hs] at this <;> first | rfl | exact absurd (by decide) this

theorem Ready.listens {w : World} {c : Client x} {t : Bytes} {p : Nat} {unread : Bytes} (h : Ready w c t p unread) : Listens w c p unread :=
  ⟨by rw [connected_state h.connected]; decide, h.holds, h.rx, h.tx⟩

theorem description_code : ∀ d : AlertDescription, AlertDescription.tryFrom d.code = .ok d := by intro d; cases d <;> rfl
theorem level_code : ∀ l : AlertLevel, AlertLevel.tryFrom l.code = .ok l := by intro l; cases l <;> rfl

theorem onRx_popTail {ε : Type} {w : World} {c : Client x} {y : UInt8} {rx : Buffer} (h : c.rx.popTail = some (y, rx)) :
    onRx (popTailRx : X ε _ _) (w, c) = (.ok (some y), (w, { c with rx })) := by
  unfold onRx popTailRx
  dsimp only
  rw [h]

theorem QRel.pop_none {b : Buffer} {cap : Nat} {app : Bytes} (h : QRel b ⟨cap, app, []⟩) : b.containsHandshakeFragment = false := h.noFragment

/-- C88, alerts that are not encrypted: a record with an alert, of any level and description of the standard, is reported with that level and
description; the client resets its keys and begins again, and sends nothing. -/
theorem C88_plain_alert_partial (dbg : Bool) (fuel : Nat) (rng : Rng x) (secs : UInt32) (w : World) (c : Client x) (p : Nat)
    (unread : Bytes) (hl : Listens w c p unread) (hi : Quiet w c) (a : Alert) (v1 v2 : UInt8)
    (ha : [21, v1, v2, 0, 2, a.level.code, a.description.code] <+: (w.chip.received c.sn.toU8.toNat).drop p)
    (hfit : unread.length + 2 ≤ c.rx.n - 1) (hlim : 2 ≤ c.recordSizeLimit.toNat) :
    let r := process dbg fuel worldBus rng secs (w, c)
    (dbg = true ∧ r.1 = .error (.stop .panic)) ∨
    (r.1 = .error (.err (.server a)) ∧ r.2.2.state = .reset ∧ r.2.2.ks = KeySchedule.default x ∧ r.2.1.chip.sent = w.chip.sent) := by
  intro r
  obtain ⟨base, hat⟩ := hl.rx.at
  have hpl := ha.length_le
  rw [List.length_drop] at hpl
  simp only [List.length_cons, List.length_nil] at hpl
  have htake : ((w.chip.received c.sn.idx).drop p).take (5 + 2) = [21, v1, v2, 0, 2] ++ [a.level.code, a.description.code] :=
    (List.prefix_iff_eq_take.mp ha).symm
  obtain ⟨w0, hs0, hrd0, hp⟩ := process_recv dbg fuel rng secs c hl.receives hat hl.tx hi (by show p + 5 ≤ (w.chip.received c.sn.toU8.toNat).length; omega)
  rcases recv_plain dbg fuel secs c [21, v1, v2, 0, 2] [a.level.code, a.description.code] .alert hs0 hrd0 rfl htake rfl (by decide) (by show (be16 0 2).toNat = 2; decide)
    (by show 0 < 2; decide) hlim hl.holds (by simpa using hfit) with ⟨w', hdbg, e⟩ | ⟨w1, rx1, hs1, -, hq1, -, e⟩
  · left
    refine ⟨hdbg, ?_⟩
    show (process dbg fuel worldBus rng secs (w, c)).1 = _
    rw [hp, X.bind_error e]
  right
  obtain ⟨rx2, p2, hq2⟩ := hq1.pop (by simp)
  obtain ⟨rx3, p3, hq3⟩ := hq2.pop (by simp [List.dropLast])
  have p2' : rx1.popTail = some (a.description.code, rx2) := p2
  have p3' : rx2.popTail = some (a.level.code, rx3) := p3
  have e2 : recvRecord dbg fuel worldBus secs (toHeader [21, v1, v2, 0, 2]) .alert .alert c.rx.containsHandshakeFragment (w1, { c with rx := rx1 })
      = (.error (.err (.server a)), (w1, { (Client.reset { c with rx := rx1 }) with rx := rx3.reset })) := by
    unfold recvRecord
    rw [QRel.pop_none (show QRel c.rx ⟨_, _, []⟩ from hl.holds), if_neg (by simp), if_pos rfl]
    unfold failAlert
    rw [X.bind_run]
    show (if (toHeader [21, v1, v2, 0, 2]).length ≠ 2 then _ else _ : X TErr (World × Client x) (Option TEvent)) (w1, Client.reset { c with rx := rx1 }) = _
    rw [if_neg (by
      show ¬ be16 0 2 ≠ 2
      decide)]
    have f1 := onRx_popTail (ε := TErr) (w := w1) (c := Client.reset { c with rx := rx1 }) p2'
    rw [X.bind_ok f1]
    dsimp only
    rw [description_code]
    dsimp only
    unfold recvAlertLevel
    have f2 := onRx_popTail (ε := TErr) (w := w1) (c := { (Client.reset { c with rx := rx1 }) with rx := rx2 }) p3'
    rw [X.bind_ok f2]
    rw [X.bind_run]
    unfold modC
    dsimp only
    rw [level_code]
    rfl
  have he : r = (.error (.err (.server a)), (w1, { (Client.reset { c with rx := rx1 }) with rx := rx3.reset })) := by
    show process dbg fuel worldBus rng secs (w, c) = _
    rw [hp, X.bind_error (e.trans e2)]
  rw [he]
  exact ⟨rfl, rfl, rfl, hs1.sent⟩

/-- C88 does not hold for encrypted alerts, the only ones that a server sends once the handshake keys exist (RFC 8446 section 5): whatever alert the
server protects and sends, the client does not report it, but `DecodeError` as an error of its own. -/
theorem C88_encrypted_alerts_are_not_reported (hx : x.Standard) (dbg : Bool) (fuel : Nat) (rng : Rng x) (secs : UInt32) (w : World) (c : Client x)
    (t : Bytes) (p : Nat) (unread : Bytes) (hl : Listens w c p unread) (hi : Quiet w c) (ht : c.ks.serverTraffic = some t)
    (hseq : c.ks.readSeq.toNat + 1 < 2 ^ 64) (a : Alert)
    (ha : Spec.Tls.protect t c.ks.readSeq.toNat 21 [a.level.code, a.description.code] <+: (w.chip.received c.sn.toU8.toNat).drop p)
    (hfit : unread.length + 3 ≤ c.rx.n - 1) (hlim : 19 ≤ c.recordSizeLimit.toNat) :
    let r := process dbg fuel worldBus rng secs (w, c)
    (dbg = true ∧ r.1 = .error (.stop .panic)) ∨
    (r.1 = .error (.err (.client { level := .fatal, description := .decodeError })) ∧ r.2.2.state = .reset) := by
  intro r
  obtain ⟨header, record, e1, e2, e3, e4⟩ := protect_opens t c.ks.readSeq.toNat 21 [a.level.code, a.description.code]
  have e3 : record.length = 19 := e3
  rw [e1] at ha
  obtain ⟨v1, v2, hh⟩ := e2
  have h5 : header.length = 5 := by rw [hh]; rfl
  obtain ⟨base, hat⟩ := hl.rx.at
  have hpl := ha.length_le
  rw [List.length_append, List.length_drop, h5, e3] at hpl
  have htake : ((w.chip.received c.sn.idx).drop p).take (5 + record.length) = header ++ record := by
    have := List.prefix_iff_eq_take.mp ha
    rw [List.length_append, h5] at this
    exact this.symm
  obtain ⟨w0, hs0, hrd0, hp⟩ := process_recv dbg fuel rng secs c hl.receives hat hl.tx hi (by show p + 5 ≤ (w.chip.received c.sn.toU8.toNat).length; omega)
  have hml : (be16 (header.getD 3 0) (header.getD 4 0)).toNat = record.length := by rw [hh]; exact u16_value record.length (by omega)
  rcases recv_run hx dbg fuel secs (cap := c.rx.n - 1) (app := unread) c header record t hs0 hrd0 h5 htake (by rw [hh]; rfl)
    hml (by omega) (by omega) hl.holds (by omega) ht hseq with ⟨w', hdbg, e⟩ | ⟨w1, rx1, pend, g1, g2, g3, -, -, g5⟩
  · left
    refine ⟨hdbg, ?_⟩
    show (process dbg fuel worldBus rng secs (w, c)).1 = _
    rw [hp, X.bind_error e]
  have hrec := (g5 _ e4).2.2.2.2 .alert 21 (by simp) rfl (by decide)
  obtain ⟨w2, -, hd⟩ := run_debugAssert dbg _ w1 (run_notUdpInitMacraw c.sn w1)
  have hrun : recvRecord dbg fuel worldBus secs (toHeader header) .applicationData .alert false (w1, { c with rx := rx1 })
      = (((onBus (tcpDisconnect dbg worldBus c.sn)).attempt >>= fun _ =>
        X.throw (.client { level := .fatal, description := .decodeError })) : X TErr (World × Client x) (Option TEvent))
          (w1, { (Client.reset { c with rx := rx1 }) with rx := rx1.reset }) := by
    unfold recvRecord
    rw [if_neg (by simp), if_pos rfl]
    unfold failAlert
    rw [X.bind_run]
    show (if (toHeader header).length ≠ 2 then _ else _ : X TErr (World × Client x) (Option TEvent)) (w1, Client.reset { c with rx := rx1 }) = _
    rw [if_pos (by
      intro h
      have := congrArg UInt16.toNat h
      rw [show (toHeader header).length = be16 (header.getD 3 0) (header.getD 4 0) from rfl, hml, e3] at this
      exact absurd this (by decide))]
    rw [X.bind_run]
    rfl
  rcases hd with hd | ⟨hdbg, hd⟩
  · right
    have e5 : tcpDisconnect dbg worldBus c.sn w1 = (.ok (), { w2.tick with chip := w2.tick.chip.command c.sn.idx SocketCommand.disconnect.code }) := by
      unfold tcpDisconnect
      rw [M.bind_ok hd, run_setSnCr]
    have e6 : recvRecord dbg fuel worldBus secs (toHeader header) .applicationData .alert false (w1, { c with rx := rx1 })
        = (.error (.err (.client { level := .fatal, description := .decodeError })),
          ({ w2.tick with chip := w2.tick.chip.command c.sn.idx SocketCommand.disconnect.code },
            { (Client.reset { c with rx := rx1 }) with rx := rx1.reset })) := by
      rw [hrun, X.bind_ok (X.attempt_ok (onBus_ok' e5 _))]
      rfl
    have he := hp
    rw [X.bind_error (hrec.trans e6)] at he
    rw [show r = _ from he]
    exact ⟨rfl, rfl⟩
  · left
    refine ⟨hdbg, ?_⟩
    have e5 : tcpDisconnect dbg worldBus c.sn w1 = (.error .panic, w2) := by
      unfold tcpDisconnect
      exact M.bind_error hd
    show (process dbg fuel worldBus rng secs (w, c)).1 = _
    have e6 : (recvRecord dbg fuel worldBus secs (toHeader header) .applicationData .alert false (w1, { c with rx := rx1 })).1 = .error (.stop .panic) := by
      rw [hrun, X.bind_run]
      have : ((onBus (tcpDisconnect dbg worldBus c.sn)).attempt : X TErr (World × Client x) (Except AlertDescription Unit)) (w1, { (Client.reset { c with rx := rx1 }) with rx := rx1.reset })
          = (.error (.stop .panic), (w2, { (Client.reset { c with rx := rx1 }) with rx := rx1.reset })) := by
        unfold X.attempt onBus internal X.onFst X.mapErr X.ofM
        dsimp only
        rw [e5]
        rfl
      rw [this]
    rw [hp, X.bind_run, hrec]
    generalize recvRecord dbg fuel worldBus secs (toHeader header) .applicationData .alert false (w1, { c with rx := rx1 }) = y at e6
    obtain ⟨y1, y2⟩ := y
    cases e6
    rfl

namespace Witness

/-- A `handshake_failure` in the clear, to a connected client. -/
example : let r := process false 3 worldBus rng 0 (Thm.tcpWorld 0 [21, 3, 3, 0, 2, 2, 40], c5)
    r.1 = .error (.err (.server { level := .fatal, description := .handshakeFailure })) :=
  ((C88_plain_alert_partial false 3 rng 0 _ c5 0 [] (ready _ (by decide)).listens (peace _).quiet ⟨.fatal, .handshakeFailure⟩ 3 3
    List.prefix_rfl (by decide +kernel) (by decide +kernel)).resolve_left (fun h => absurd h.1 (by decide))).1

/-- A `close_notify`, protected as the standard demands. -/
example : let r := process false 3 worldBus rng 0 (Thm.tcpWorld 0 (Spec.Tls.protect serverApp 0 21 [1, 0]), c5)
    r.1 = .error (.err (.client { level := .fatal, description := .decodeError })) :=
  ((C88_encrypted_alerts_are_not_reported standard false 3 rng 0 _ c5 serverApp 0 [] (ready _ (record_length _ _ _ _ (by decide))).listens
    (peace _).quiet rfl (by decide) ⟨.warning, .closeNotify⟩
    List.prefix_rfl (by decide +kernel) (by decide +kernel)).resolve_left (fun h => absurd h.1 (by decide))).1

/-- At most one of two tags is right. -/
theorem forged (header : Bytes) : ∃ record : Bytes, record.length = 19 ∧ Spec.Tls.unprotect serverApp 0 header record = none := by
  have key : ∀ y : UInt8, Spec.Tls.unprotect serverApp 0 header ([1, 2, 3] ++ List.replicate 16 y) ≠ none →
      List.replicate 16 y = Spec.Gcm.tag (Spec.Tls.recordCipher serverApp) (Spec.Tls.recordNonce serverApp 0) header [1, 2, 3] := by
    intro y h
    unfold Spec.Tls.unprotect Spec.Gcm.ad at h
    by_cases he : (([1, 2, 3] ++ List.replicate 16 y).drop (([1, 2, 3] ++ List.replicate 16 y).length - 16))
        = Spec.Gcm.tag (Spec.Tls.recordCipher serverApp) (Spec.Tls.recordNonce serverApp 0) header
          (([1, 2, 3] ++ List.replicate 16 y).take (([1, 2, 3] ++ List.replicate 16 y).length - 16))
    · exact he
    · rw [if_neg he] at h
      exact absurd rfl h
  by_cases h0 : Spec.Tls.unprotect serverApp 0 header ([1, 2, 3] ++ List.replicate 16 0) = none
  · exact ⟨_, rfl, h0⟩
  by_cases h1 : Spec.Tls.unprotect serverApp 0 header ([1, 2, 3] ++ List.replicate 16 1) = none
  · exact ⟨_, rfl, h1⟩
  exact absurd ((key 0 h0).trans (key 1 h1).symm) (by decide)

/-- A record whose tag is wrong. -/
example : ∃ record : Bytes, (process false 3 worldBus rng 0 (Thm.tcpWorld 0 ([23, 3, 3, 0, 19] ++ record), c5)).1
    = .error (.err (.client { level := .warning, description := .badRecordMac })) := by
  obtain ⟨record, hl, hu⟩ := forged [23, 3, 3, 0, 19]
  refine ⟨record, ?_⟩
  exact ((C60_forgery_partial standard false 3 rng 0 _ c5 serverApp 0 [] [23, 3, 3, 0, 19] record
    (ready _ (by rw [List.length_append, hl]; decide)) (peace _).quiet
    ⟨List.prefix_rfl, ⟨3, 3, by rw [hl]; rfl⟩, by omega, by rw [hl]; decide +kernel, by rw [hl]; decide +kernel⟩ hu).resolve_left
      (fun h => absurd h.1 (by decide))).1

/-- Eleven bytes of data, and then an alert because of a record that could not be verified. -/
example : ∃ w1 w2 : World, tlsWriteAll worldBus [104, 101, 108, 108, 111, 32, 119, 111, 114, 108, 100] (Thm.tcpWorld 0 [], c5) = (.ok (), (w1, c5)) ∧
    w2.chip.sent.map (·.payload) = (Thm.tcpWorld 0 []).chip.sent.map (·.payload) ++
      [Spec.Tls.protect clientApp c5.ks.writeSeq.toNat 23 [104, 101, 108, 108, 111, 32, 119, 111, 114, 108, 100],
        Spec.Tls.protect clientApp c5.ks.writeSeq.toNat 21 [2, 20]] := by
  obtain ⟨w1, w2, -, h1, -, h3, -⟩ := C52_alert_reuses_the_nonce (α := Unit) standard (Thm.tcpWorld 0 []) c5 clientApp
    [104, 101, 108, 108, 111, 32, 119, 111, 114, 108, 100] .badRecordMac 7 (ready _ (by decide)).tx rfl rfl rfl (by decide +kernel) (by decide +kernel)
  exact ⟨w1, w2, h1, h3⟩

end Witness

end Verif.Tls
