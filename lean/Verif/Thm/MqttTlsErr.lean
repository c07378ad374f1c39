import Verif.Thm.MqttTlsStuck
import Verif.Thm.TlsAlerts
import Verif.Thm.TlsRetry
/-!
# C108, C109: packet identifiers and errors of the MQTT client over TLS
-/
namespace Verif.MqttTls
open Verif Hl
open _root_.Verif.Spec (World worldBus TxState RxState Queue Chip Mem Image imageOps Sent Cursor cursorOps)
open Verif.Tls (X Crypto TErr TEvent Rng TlsReader Fail Alert tlsWriter tlsSend Undisturbed)
open Verif.Mqtt (State MErr RecvOut PubInfo SubAckReasonCode UnSubAckReasonCode ConnectReasonCode)

variable {x : Crypto} {σ : Type}

/-! ## C108: packet identifiers -/

/-- `subscribe`, or `unsubscribe`. -/
def ask (un dbg : Bool) (b : Bus σ) (filter : Bytes) : X Error (σ × Client x) UInt16 :=
  if un then unsubscribe dbg b filter else subscribe dbg b filter

/-- A call of `subscribe` or `unsubscribe`. -/
def Op.asks : Op σ x → Bool
  | .subscribe .. => true
  | .unsubscribe .. => true
  | _ => false

/-- The packet identifier stays as it is. -/
def KeepsId {ε α : Type} (m : X ε (σ × Client x) α) : Prop := ∀ s, (m s).2.2.pktId = s.2.pktId

theorem KeepsId.bind {ε α β : Type} {m : X ε (σ × Client x) α} {f : α → X ε (σ × Client x) β} (h : KeepsId m) (hf : ∀ a, KeepsId (f a)) :
    KeepsId (m >>= f) := by
  intro s
  have h1 := h s
  rcases hm : m s with ⟨e | a, s1⟩ <;> rw [hm] at h1
  · rw [X.bind_error hm]; exact h1
  · rw [X.bind_ok hm, hf a s1]; exact h1

theorem onTls_id {ε α : Type} (f : Fail ε → Fail Error) (m : X ε (σ × Tls.Client x) α) : KeepsId (onTls f m) := by
  intro s
  unfold onTls
  rcases m (s.1, s.2.tls) with ⟨e | a, t⟩ <;> rfl

theorem pure_id {ε α : Type} (a : α) : KeepsId (pure a : X ε (σ × Client x) α) := fun _ => rfl
theorem throw_id {α : Type} (e : Error) : KeepsId (X.throw e : X Error (σ × Client x) α) := fun _ => rfl
theorem except_id {α : Type} (e : Except (Fail Error) α) : KeepsId (X.ofExcept e : X Error (σ × Client x) α) := fun _ => rfl

theorem publish_id (b : Bus σ) (topic payload : Bytes) : KeepsId (MqttTls.publish b topic payload : X Error (σ × Client x) Unit) :=
  (onTls_id _ _).bind fun _ => onTls_id _ _

theorem checkTimeout_id (dbg : Bool) (secs : UInt32) : KeepsId (checkTimeout dbg secs : X Error (σ × Client x) Event) := by
  refine KeepsId.bind (fun _ => rfl) fun c => KeepsId.bind ?_ fun e => ?_
  · cases c.elapsedSecs dbg secs
    · exact except_id _
    · exact pure_id _
  · cases e with
    | none => exact pure_id _
    | some n =>
      dsimp only
      split
      · exact KeepsId.bind (fun _ => rfl) fun _ => throw_id _
      · exact pure_id _

theorem recvFinish_id (r : TlsReader) (out : RecvOut) : KeepsId (recvFinish r out : X Error (σ × Client x) (Option Event)) := by
  cases out with
  | pending => exact pure_id _
  | bad e reset =>
    cases reset
    · exact throw_id _
    · exact KeepsId.bind (fun _ => rfl) fun _ => throw_id _
  | connAck code =>
    refine KeepsId.bind (fun s => rfl) fun _ => ?_
    split
    · exact KeepsId.bind (fun _ => rfl) fun _ => throw_id _
    · split
      · exact KeepsId.bind (fun _ => rfl) fun _ => pure_id _
      · exact KeepsId.bind (fun _ => rfl) fun _ => throw_id _
  | subAck id code => exact KeepsId.bind (fun _ => rfl) fun _ => pure_id _
  | unSubAck id code => exact KeepsId.bind (fun _ => rfl) fun _ => pure_id _
  | publish info => exact pure_id _
  | ignored => exact KeepsId.bind (fun _ => rfl) fun _ => pure_id _

theorem receive_id (dbg : Bool) (secs : UInt32) : KeepsId (MqttTls.receive dbg secs : X Error (σ × Client x) Event) := by
  refine KeepsId.bind (fun _ => rfl) fun c => ?_
  split
  · exact checkTimeout_id dbg secs
  · exact except_id _
  · refine KeepsId.bind (KeepsId.bind (fun _ => rfl) fun c => ?_) fun ev => ?_
    · split
      · exact recvFinish_id _ _
      · exact except_id _
    · cases ev
      · exact checkTimeout_id dbg secs
      · exact pure_id _

theorem process_id (dbg : Bool) (fuel : Nat) (b : Bus σ) (rng : Rng x) (secs : UInt32) :
    KeepsId (MqttTls.process dbg fuel b rng secs : X Error (σ × Client x) Event) := by
  refine KeepsId.bind (onTls_id _ _) fun ev => ?_
  cases ev with
  | callAfter n => exact pure_id _
  | applicationData => exact receive_id dbg secs
  | handshakeFinished =>
    exact KeepsId.bind (KeepsId.bind (fun _ => rfl) fun c => (onTls_id _ _).bind fun _ => (onTls_id _ _).bind fun _ =>
      KeepsId.bind (fun _ => rfl) fun _ => pure_id _) fun _ => pure_id _
  | disconnect => exact throw_id _
  | none => exact receive_id dbg secs

/-- The place of an identifier in the cycle of the identifiers. -/
def idPlace (id : UInt16) : Nat := id.toNat - 1

theorem next_place (c : Client x) (h : c.pktId ≠ 0) : c.nextPktId.pktId ≠ 0 ∧ idPlace c.nextPktId.pktId = (idPlace c.pktId + 1) % 65535 := by
  have hb := c.pktId.toNat_lt
  have h0 : c.pktId.toNat ≠ 0 := fun e => h (UInt16.toNat_inj.mp (by simpa using e))
  unfold idPlace Client.nextPktId
  dsimp only
  by_cases h1 : c.pktId = 65535
  · rw [if_pos h1, h1]; decide
  · rw [if_neg h1]
    have h2 : c.pktId.toNat ≠ 65535 := fun e => h1 (UInt16.toNat_inj.mp (by simpa using e))
    have h3 : (c.pktId + 1).toNat = c.pktId.toNat + 1 := by
      rw [UInt16.toNat_add]; change (_ + 1) % 65536 = _; omega
    refine ⟨fun e => ?_, ?_⟩
    · have := congrArg UInt16.toNat e
      rw [h3] at this; simp at this
    · rw [h3]; omega

/-- A request advances the identifier, and returns the new one. -/
theorem sendFilter_id (b : Bus σ) (filter : Bytes) (p : UInt16 → WProg Unit) (s : σ × Client x) :
    (sendFilter b filter p s).2.2.pktId = s.2.nextPktId.pktId ∧
    ∀ id, (sendFilter b filter p s).1 = .ok id → filter ≠ [] → id = s.2.nextPktId.pktId := by
  unfold sendFilter
  rw [X.bind_ok (show modC Client.nextPktId s = (.ok (), (s.1, s.2.nextPktId)) from rfl), X.bind_ok (getC_run _)]
  rcases h1 : onTls mapWriterErr (tlsWriter b) (s.1, s.2.nextPktId) with ⟨e | r, s1⟩
  · rw [X.bind_error h1]
    have := onTls_id mapWriterErr (tlsWriter b) (s.1, s.2.nextPktId)
    rw [h1] at this
    exact ⟨this, nofun⟩
  · rw [X.bind_ok h1]
    have k1 := onTls_id mapWriterErr (tlsWriter b) (s.1, s.2.nextPktId)
    rw [h1] at k1
    split
    · rename_i hf
      exact ⟨k1, fun id _ hne => absurd (List.isEmpty_iff.mp hf) hne⟩
    · dsimp only
      rcases h2 : onTls mapW5500 (sendPacket b r (p s.2.nextPktId.pktId)) s1 with ⟨e | u, s2⟩
      · rw [X.bind_error h2]
        have := onTls_id mapW5500 (sendPacket b r (p s.2.nextPktId.pktId)) s1
        rw [h2] at this
        exact ⟨this.trans k1, nofun⟩
      · rw [X.bind_ok h2]
        have := onTls_id mapW5500 (sendPacket b r (p s.2.nextPktId.pktId)) s1
        rw [h2] at this
        exact ⟨this.trans k1, fun id h _ => by injection h with h; exact h.symm⟩

theorem ask_id (un dbg : Bool) (b : Bus σ) (filter : Bytes) (s : σ × Client x) :
    (ask un dbg b filter s).2.2.pktId = s.2.nextPktId.pktId ∧
    ∀ id, (ask un dbg b filter s).1 = .ok id → filter ≠ [] → id = s.2.nextPktId.pktId := by
  cases un
  · exact sendFilter_id b filter (Mqtt.subscribeProg dbg filter) s
  · exact sendFilter_id b filter (Mqtt.unsubscribeProg dbg filter) s

theorem history_id (b : Bus σ) (ops : List (Op σ x)) : ∀ s : σ × Client x, s.2.pktId ≠ 0 →
    (history b ops s).2.2.pktId ≠ 0 ∧ idPlace (history b ops s).2.2.pktId = (idPlace s.2.pktId + (ops.filter Op.asks).length) % 65535 := by
  have hlt : ∀ i : UInt16, idPlace i % 65535 = idPlace i := by
    intro i; have := i.toNat_lt; unfold idPlace; omega
  induction ops with
  | nil => intro s h; exact ⟨h, (hlt _).symm⟩
  | cons op ops ih =>
    intro s h
    have hstep : (op.run b s).2.2.pktId ≠ 0 ∧ idPlace (op.run b s).2.2.pktId = (idPlace s.2.pktId + if op.asks then 1 else 0) % 65535 := by
      have hkeep : ∀ i : UInt16, i = s.2.pktId → op.asks = false → i ≠ 0 ∧ idPlace i = (idPlace s.2.pktId + if op.asks then 1 else 0) % 65535 := by
        intro i hi ha
        rw [hi, ha]
        exact ⟨h, (hlt _).symm⟩
      cases op with
      | process dbg fuel rng secs => exact hkeep _ (process_id dbg fuel b rng secs s) rfl
      | publish topic payload => exact hkeep _ (publish_id b topic payload s) rfl
      | subscribe dbg filter =>
        have h1 := (sendFilter_id b filter (Mqtt.subscribeProg dbg filter) s).1
        change (sendFilter b filter (Mqtt.subscribeProg dbg filter) s).2.2.pktId ≠ 0 ∧ idPlace (sendFilter b filter (Mqtt.subscribeProg dbg filter) s).2.2.pktId = _
        rw [h1]; exact next_place s.2 h
      | unsubscribe dbg filter =>
        have h1 := (sendFilter_id b filter (Mqtt.unsubscribeProg dbg filter) s).1
        change (sendFilter b filter (Mqtt.unsubscribeProg dbg filter) s).2.2.pktId ≠ 0 ∧ idPlace (sendFilter b filter (Mqtt.unsubscribeProg dbg filter) s).2.2.pktId = _
        rw [h1]; exact next_place s.2 h
      | setClientId id => exact hkeep _ rfl rfl
      | device f => exact hkeep _ rfl rfl
    obtain ⟨h1, h2⟩ := ih (op.run b s).2 hstep.1
    refine ⟨h1, ?_⟩
    show idPlace (history b ops (op.run b s).2).2.2.pktId = _
    rw [h2, hstep.2, List.filter_cons]
    cases op.asks
    · simp only [Bool.false_eq_true, if_false, Nat.add_zero]; omega
    · simp only [if_true, List.length_cons]; omega

/-- C108: whatever was done with a client since it was made, and whatever the device did: if two calls of `subscribe` or `unsubscribe` (not
with the empty filter) return identifiers, and there were fewer than 65534 such calls between them, the identifiers are different, and not 0. -/
theorem C108_ids (b : Bus σ) (s : σ) (sn : Sn) (srcPort : UInt16) (hostname : Bytes) (dst : SockAddr) (identity psk rx : Bytes)
    (first between : List (Op σ x)) (un1 un2 dbg1 dbg2 : Bool) (filter1 filter2 : Bytes) (id1 id2 : UInt16)
    (hf1 : filter1 ≠ []) (hf2 : filter2 ≠ []) (hn : (between.filter Op.asks).length < 65534) :
    let s1 := (history b first (s, Client.new x sn srcPort hostname dst identity psk rx)).2
    let r1 := ask un1 dbg1 b filter1 s1
    let s2 := (history b between r1.2).2
    let r2 := ask un2 dbg2 b filter2 s2
    r1.1 = .ok id1 → r2.1 = .ok id2 → id1 ≠ 0 ∧ id2 ≠ 0 ∧ id1 ≠ id2 := by
  intro s1 r1 s2 r2 h1 h2
  obtain ⟨a1, -⟩ := history_id b first (s, Client.new x sn srcPort hostname dst identity psk rx) (by change (1 : UInt16) ≠ 0; decide)
  obtain ⟨b1, b2⟩ := next_place s1.2 a1
  obtain ⟨c1, c2⟩ := ask_id un1 dbg1 b filter1 s1
  have e1 := c2 id1 h1 hf1
  obtain ⟨d1, d2⟩ := history_id b between r1.2 (by rw [c1]; exact b1)
  obtain ⟨f1, f2⟩ := next_place s2.2 d1
  have e2 := (ask_id un2 dbg2 b filter2 s2).2 id2 h2 hf2
  refine ⟨e1 ▸ b1, e2 ▸ f1, fun h => ?_⟩
  rw [c1] at d2
  change idPlace s2.2.pktId = _ at d2
  rw [← e1] at d2
  rw [← e2, d2, ← h] at f2
  have := id1.toNat_lt
  have h3 : idPlace id1 < 65535 := by unfold idPlace; omega
  omega

/-! ## C109: errors -/

/-- Every error that is returned (panics are not) satisfies `P`. -/
def Errs {ε α τ : Type} (P : ε → Prop) (m : X ε τ α) : Prop := ∀ s e, (m s).1 = .error (.err e) → P e

section
variable {τ ε α β : Type} {P : ε → Prop}

theorem Errs.bind {m : X ε τ α} {f : α → X ε τ β} (h : Errs P m) (hf : ∀ a, Errs P (f a)) : Errs P (m >>= f) := by
  intro s e he
  rcases hm : m s with ⟨e' | a, s1⟩
  · rw [X.bind_error hm] at he
    have he2 : e' = .err e := by injection he
    exact h s e (by rw [hm, he2])
  · rw [X.bind_ok hm] at he
    exact hf a s1 e he

theorem Errs.pure (a : α) : Errs P (Pure.pure a : X ε τ α) := fun s e h => by cases h
theorem Errs.throw {e : ε} (h : P e) : Errs P (X.throw e : X ε τ α) := fun s e' he => by
  have : e = e' := by injection he with he; injection he
  exact this ▸ h
theorem Errs.attempt {ε' : Type} (m : X ε' τ α) : Errs P (m.attempt : X ε τ (Except ε' α)) := by
  intro s e he
  unfold X.attempt at he
  generalize m s = y at he
  rcases y with ⟨⟨e' | e' | _⟩ | a, s'⟩ <;> cases he
theorem Errs.cipher (r : Except Err α) : Errs P (Tls.ofCipher r : X ε τ α) := by
  intro s e he
  cases r <;> cases he

end

section
open Verif.Tls

theorem errs_getC {ε : Type} {P : ε → Prop} : Errs P (Tls.getC : X ε (σ × Tls.Client x) (Tls.Client x)) := fun s e h => by cases h
theorem errs_modC {ε : Type} {P : ε → Prop} (f : Tls.Client x → Tls.Client x) : Errs P (Tls.modC f : X ε (σ × Tls.Client x) Unit) := fun s e h => by cases h

theorem errs_sendAlert {ε : Type} {P : ε → Prop} (b : Bus σ) (l : AlertLevel) (d : AlertDescription) (secs : UInt32) :
    Errs P (sendAlert b l d secs : X ε (σ × Tls.Client x) Unit) := by
  refine Errs.bind (Errs.attempt _) fun r => Errs.bind (errs_modC _) fun _ => ?_
  cases r <;> exact errs_modC _

theorem errs_onRx {P : TErr → Prop} : Errs P (onRx popTailRx : X TErr (σ × Tls.Client x) (Option UInt8)) := by
  intro s e h
  unfold onRx popTailRx at h
  dsimp only at h
  generalize s.2.rx.popTail = y at h
  rcases y with _ | ⟨_, _⟩ <;> cases h

variable {P : TErr → Prop} (hc : ∀ a, P (.client a)) (hs : ∀ a, P (.server a))
include hc

theorem errs_failFatal {α : Type} (b : Bus σ) (d : AlertDescription) (secs : UInt32) : Errs P (failFatal b d secs : X TErr (σ × Tls.Client x) α) :=
  Errs.bind (errs_sendAlert b _ d secs) fun _ => Errs.throw (hc _)

theorem errs_orFatal {α : Type} (b : Bus σ) (secs : UInt32) (m : X AlertDescription (σ × Tls.Client x) α) : Errs P (orFatal b secs m) := by
  refine Errs.bind (Errs.attempt _) fun r => ?_
  cases r
  · exact errs_failFatal hc b _ secs
  · exact Errs.pure _

include hs

theorem errs_failAlert {α : Type} (dbg : Bool) (b : Bus σ) (header : RecordHeader) : Errs P (failAlert dbg b header : X TErr (σ × Tls.Client x) α) := by
  refine Errs.bind (errs_modC _) fun _ => ?_
  split
  · exact Errs.bind (errs_modC _) fun _ => Errs.bind errs_getC fun _ => Errs.bind (Errs.attempt _) fun _ => Errs.throw (hc _)
  · refine Errs.bind (errs_onRx) fun y => ?_
    cases y with
    | none => exact Errs.bind (errs_modC _) fun _ => Errs.throw (hc _)
    | some y =>
      dsimp only
      split
      · exact Errs.throw (hc _)
      · refine Errs.bind (errs_onRx) fun y => Errs.bind (errs_modC _) fun _ => ?_
        cases y
        · exact Errs.throw (hc _)
        · exact Errs.throw (hs _)

theorem errs_recv (dbg : Bool) (fuel : Nat) (b : Bus σ) (secs : UInt32) : Errs P (Tls.recv dbg fuel b secs : X TErr (σ × Tls.Client x) (Option TEvent)) := by
  refine Errs.bind (errs_orFatal hc b secs _) fun h => ?_
  cases h with
  | none => exact Errs.pure _
  | some h =>
    refine Errs.bind errs_getC fun c => ?_
    split
    · exact fun s e h => by cases h
    · rename_i outer _
      refine Errs.bind ?_ fun ct => Errs.bind ?_ fun _ => ?_
      · unfold recvBody
        split
        · refine Errs.bind errs_getC fun c => ?_
          split
          · exact errs_failFatal hc b _ secs
          · refine Errs.bind (errs_orFatal hc b secs _) fun ct => ?_
            cases ct
            · exact errs_failFatal hc b _ secs
            · exact Errs.pure _
        · exact Errs.bind (errs_orFatal hc b secs _) fun _ => Errs.pure _
      · unfold countAppData
        split
        · exact Errs.bind errs_getC fun c => Errs.bind (Errs.cipher _) fun _ => errs_modC _
        · exact Errs.pure _
      · unfold recvRecord
        split
        · exact errs_failFatal hc b _ secs
        · split
          · exact errs_failAlert hc hs dbg b _
          · have hcontent : Errs P (recvContent fuel b secs h ct : X TErr (σ × Tls.Client x) (Option TEvent)) := by
              unfold recvContent
              split
              · exact Errs.bind (errs_orFatal hc b secs _) fun _ => Errs.pure _
              · exact Errs.bind (errs_orFatal hc b secs _) fun _ => Errs.pure _
              · refine Errs.bind errs_getC fun c => ?_
                split
                · exact Errs.pure _
                · exact errs_failFatal hc b _ secs
            intro s e he
            have h1 := hcontent s
            generalize hm : recvContent fuel b secs h ct s = y at h1
            have h2 := he
            rw [X.bind_run] at h2
            unfold X.attempt at h2
            rw [hm] at h2
            rcases y with ⟨⟨e' | e' | _⟩ | a, s'⟩
            · have hq : Errs (· = e') (countRead outer >>= fun _ => X.ofExcept ((Except.error e' : Except TErr (Option TEvent)).mapError .err) : X TErr (σ × Tls.Client x) _) := by
                refine Errs.bind ?_ fun _ => fun s e h => by injection h with h; injection h with h; exact h.symm
                unfold countRead
                split
                · exact Errs.bind errs_getC fun c => Errs.bind (Errs.cipher _) fun _ => errs_modC _
                · exact Errs.pure _
              have := hq s' e h2
              exact this ▸ h1 e' rfl
            · cases h2
            · cases h2
            · have hq : Errs P (countRead outer >>= fun _ => X.ofExcept ((Except.ok a : Except TErr (Option TEvent)).mapError .err) : X TErr (σ × Tls.Client x) _) := by
                refine Errs.bind ?_ fun _ => fun s e h => by cases h
                unfold countRead
                split
                · exact Errs.bind errs_getC fun c => Errs.bind (Errs.cipher _) fun _ => errs_modC _
                · exact Errs.pure _
              exact hq s' e h2

theorem errs_process (dbg : Bool) (fuel : Nat) (b : Bus σ) (rng : Rng x) (secs : UInt32) (hd : P .unexpectedDisconnect) (ht : P .tcpTimeout)
    (ho : ∀ st, P (.stateTimeout st)) : Errs P (Tls.process dbg fuel b rng secs : X TErr (σ × Tls.Client x) TEvent) := by
  have hcheck : Errs P (Tls.checkTimeout dbg secs : X TErr (σ × Tls.Client x) TEvent) := by
    refine Errs.bind errs_getC fun c => Errs.bind (Errs.cipher _) fun e => ?_
    cases e with
    | none => exact Errs.pure _
    | some n =>
      dsimp only
      split
      · exact Errs.bind (errs_modC _) fun _ => Errs.throw (ho _)
      · exact Errs.pure _
  have hafter : Errs P (afterRecv dbg b secs : X TErr (σ × Tls.Client x) TEvent) := by
    refine Errs.bind errs_getC fun c => ?_
    split
    · exact Errs.bind (errs_orFatal hc b secs _) fun _ => Errs.pure _
    · exact hcheck
  have hrr : Errs P (receiveRecords dbg fuel b secs : X TErr (σ × Tls.Client x) TEvent) := by
    refine Errs.bind errs_getC fun c => ?_
    split
    · exact hcheck
    · refine Errs.bind (errs_orFatal hc b secs _) fun rsr => ?_
      split
      · refine Errs.bind (errs_recv hc hs dbg fuel b secs) fun ev => ?_
        cases ev
        · exact hafter
        · exact Errs.pure _
      · exact hafter
  have hst : Errs P (onState dbg fuel b secs : X TErr (σ × Tls.Client x) TEvent) := by
    refine Errs.bind errs_getC fun c => ?_
    split
    · exact Errs.bind (errs_orFatal hc b secs _) fun _ => Errs.pure _
    · exact Errs.bind (errs_orFatal hc b secs _) fun _ => Errs.bind (errs_modC _) fun _ => Errs.pure _
    · exact hrr
  have hint : ∀ ir, Errs P (onInterrupt dbg fuel b secs ir : X TErr (σ × Tls.Client x) TEvent) := by
    intro ir
    refine Errs.bind errs_getC fun c => ?_
    split
    · split
      · exact Errs.bind (errs_modC _) fun _ => Errs.pure _
      · exact Errs.throw hd
    · split
      · exact Errs.bind (errs_modC _) fun _ => Errs.throw ht
      · split
        · exact Errs.bind (errs_modC _) fun _ => Errs.pure _
        · exact hst
  refine Errs.bind errs_getC fun c => Errs.bind (Errs.attempt _) fun ir => ?_
  cases ir with
  | error e => exact hst
  | ok ir =>
    dsimp only
    split
    · refine Errs.bind errs_getC fun c => Errs.bind (errs_orFatal hc b secs _) fun _ => ?_
      split
      · exact Errs.bind (errs_orFatal hc b secs _) fun _ => hint ir
      · exact hint ir
    · exact hst

end

/-- C109, `process` of the TLS client never returns `NotConnected`, with any device and in any state: the MQTT client relies on it, it panics
(`unreachable!`) on this error. -/
theorem C109_not_connected (dbg : Bool) (fuel : Nat) (b : Bus σ) (rng : Rng x) (secs : UInt32) (s : σ × Tls.Client x) :
    (Tls.process dbg fuel b rng secs s).1 ≠ .error (.err .notConnected) :=
  fun h => errs_process (P := (· ≠ .notConnected)) (fun _ => nofun) (fun _ => nofun) dbg fuel b rng secs nofun nofun (fun _ => nofun) s _ h rfl

/-- C109, the writer of the TLS client returns no error but `NotConnected` and an alert of the client: on the others the MQTT client panics. -/
theorem C109_writer (b : Bus σ) (s : σ × Tls.Client x) (e : TErr) (h : (tlsWriter b s).1 = .error (.err e)) :
    e = .notConnected ∨ ∃ a, e = .client a := by
  have hw : ∀ {α : Type} (m : M σ α), Errs (fun e => e = .notConnected ∨ ∃ a, e = .client a) ((Tls.writeErr (X.ofM m)).onFst : X TErr (σ × Tls.Client x) α) := by
    intro α m s e h
    unfold X.onFst Tls.writeErr X.mapErr X.ofM at h
    dsimp only at h
    generalize m s.1 = y at h
    rcases y with ⟨y | y, s'⟩
    · cases y <;> first | (injection h with h; injection h with h; exact .inr ⟨_, h.symm⟩) | cases h
    · cases h
  have key : Errs (fun e => e = .notConnected ∨ ∃ a, e = .client a) (tlsWriter b : X TErr (σ × Tls.Client x) Ptrs) := by
    refine Errs.bind errs_getC fun c => ?_
    split
    · refine Errs.bind (hw _) fun fsr => ?_
      split
      · exact Errs.throw (.inr ⟨_, rfl⟩)
      · exact Errs.bind (hw _) fun _ => Errs.pure _
    · exact Errs.throw (.inl rfl)
  exact key s e h

theorem process_err (dbg : Bool) (fuel : Nat) (b : Bus σ) (rng : Rng x) (secs : UInt32) {s s1 : σ} {c : Client x} {t : Tls.Client x} {e : Fail TErr}
    (h : Tls.process dbg fuel b rng secs (s, c.tls) = (.error e, (s1, t))) :
    process dbg fuel b rng secs (s, c) = (.error (mapProcessErr e), (s1, { c with tls := t })) := by
  unfold process
  exact X.bind_error (by unfold onTls; rw [h])

theorem process_err1 (dbg : Bool) (fuel : Nat) (b : Bus σ) (rng : Rng x) (secs : UInt32) {s : σ} {c : Client x} {e : Fail TErr}
    (h : (Tls.process dbg fuel b rng secs (s, c.tls)).1 = .error e) :
    (process dbg fuel b rng secs (s, c)).1 = .error (mapProcessErr e) := by
  rcases hm : Tls.process dbg fuel b rng secs (s, c.tls) with ⟨res, s1, t⟩
  rw [hm] at h
  change res = .error e at h
  subst h
  rw [process_err dbg fuel b rng secs hm]

/-- C109, the connection: when the other side has closed it, `process` returns `Disconnect`, in every state of the client; when the other side does
not answer, `TcpTimeout`. -/
theorem C109_connection (dbg : Bool) (fuel : Nat) (rng : Rng x) (secs : UInt32) (w : World) (c : Client x)
    (hcon : Spec.Mqtt.con (w.tick.chip.mem (4 * c.tls.sn.toU8.toNat + 1) 2) = false)
    (hev : Spec.Mqtt.discon (w.tick.chip.mem (4 * c.tls.sn.toU8.toNat + 1) 2) = true ∨ Spec.Mqtt.timeout (w.tick.chip.mem (4 * c.tls.sn.toU8.toNat + 1) 2) = true) :
    (process dbg fuel worldBus rng secs (w, c)).1 =
      .error (.err (.mqtt (if Spec.Mqtt.discon (w.tick.chip.mem (4 * c.tls.sn.toU8.toNat + 1) 2) then .disconnect else .tcpTimeout))) := by
  obtain ⟨b1, b2, b3⟩ := Thm.ir_bits (w.tick.chip.mem (4 * c.tls.sn.idx + 1) 2)
  rw [show c.tls.sn.toU8.toNat = c.tls.sn.idx from rfl] at *
  have hany : (⟨w.tick.chip.mem (4 * c.tls.sn.idx + 1) 2⟩ : SocketInterrupt).anyRaised = true := by
    have key : ∀ y, (⟨y⟩ : SocketInterrupt).disconRaised = true ∨ (⟨y⟩ : SocketInterrupt).timeoutRaised = true → (⟨y⟩ : SocketInterrupt).anyRaised = true :=
      forall_u8 (p := fun y => (⟨y⟩ : SocketInterrupt).disconRaised = true ∨ (⟨y⟩ : SocketInterrupt).timeoutRaised = true → (⟨y⟩ : SocketInterrupt).anyRaised = true)
        (by decide +kernel)
    apply key
    rcases hev with h | h
    · exact .inl (b1.trans h)
    · exact .inr (b3.trans h)
  have e : ∃ w1, Tls.process dbg fuel worldBus rng secs (w, c.tls) =
      Tls.onInterrupt dbg fuel worldBus secs ⟨w.tick.chip.mem (4 * c.tls.sn.idx + 1) 2⟩ (w1, c.tls) := by
    unfold Tls.process
    rw [X.bind_ok (Tls.getC_run (w, c.tls)), X.bind_ok (X.attempt_ok (Tls.onBus_ok' (Mqtt.run_snIr c.tls.sn w) c.tls))]
    dsimp only
    rw [if_pos hany]
    unfold Tls.onInterrupts
    rw [X.bind_ok (Tls.getC_run (w.tick, c.tls)), X.bind_ok (Tls.orFatal_ok (Tls.onBus_ok' (run_setSnIr c.tls.sn _ w.tick) c.tls)),
      if_neg (by rw [b2]; exact fun h => absurd (hcon.symm.trans h) (by decide))]
    exact ⟨_, rfl⟩
  obtain ⟨w1, e⟩ := e
  unfold Tls.onInterrupt at e
  rw [X.bind_ok (Tls.getC_run _)] at e
  by_cases hd : Spec.Mqtt.discon (w.tick.chip.mem (4 * c.tls.sn.idx + 1) 2) = true
  · rw [if_pos (b1.trans hd)] at e
    rw [if_pos hd]
    by_cases hs : c.tls.state ≠ .waitDiscon
    · rw [if_pos hs] at e
      rw [process_eq dbg fuel worldBus rng secs e]
      rfl
    · rw [if_neg hs] at e
      rw [process_err dbg fuel worldBus rng secs e]
      rfl
  · rw [if_neg (fun h => hd (b1.symm.trans h)), if_pos (b3.trans (hev.resolve_left hd))] at e
    rw [if_neg hd, process_err dbg fuel worldBus rng secs e]
    rfl

/-- C109, alerts: a record with an alert (not encrypted: encrypted alerts are not understood, see C88) is reported with its level and description. -/
theorem C109_alert_partial (dbg : Bool) (fuel : Nat) (rng : Rng x) (secs : UInt32) (w : World) (c : Client x) (p : Nat)
    (unread : Bytes) (hl : Tls.Listens w c.tls p unread) (hi : Tls.Quiet w c.tls) (a : Alert) (v1 v2 : UInt8)
    (ha : [21, v1, v2, 0, 2, a.level.code, a.description.code] <+: (w.chip.received c.tls.sn.toU8.toNat).drop p)
    (hfit : unread.length + 2 ≤ c.tls.rx.n - 1) (hlim : 2 ≤ c.tls.recordSizeLimit.toNat) :
    let r := process dbg fuel worldBus rng secs (w, c)
    (dbg = true ∧ r.1 = .error (.stop .panic)) ∨ r.1 = .error (.err (.serverAlert a)) := by
  intro r
  rcases Tls.C88_plain_alert_partial dbg fuel rng secs w c.tls p unread hl hi a v1 v2 ha hfit hlim with ⟨h1, h2⟩ | ⟨h1, -⟩
  · exact .inl ⟨h1, process_err1 dbg fuel worldBus rng secs h2⟩
  · exact .inr (process_err1 dbg fuel worldBus rng secs h1)

/-- C109, a server that says nothing more during the handshake: a call more than ten seconds later returns `StateTimeout`. -/
theorem C109_silent_server (fuel : Nat) (rng : Rng x) (secs t0 : UInt32) (w : World) (c : Client x) (p : Nat) (unread : Bytes)
    (hl : Tls.Listens w c.tls p unread) (hc : c.tls.state ≠ .sendFinished) (ht : c.tls.timeout = some t0) (hf : 1 ≤ fuel)
    (ha : Tls.Alone c.tls.sn.toU8.toNat w) (hst : Still c.tls.sn.toU8.toNat w) (hn : c.tls.rx.n ∈ [1024, 2048, 4096, 8192, 16384])
    (rest : Bytes) (hrest : rest ≠ []) (hr : Tls.IsRecord ((w.chip.received c.tls.sn.toU8.toNat).drop p ++ rest))
    (hlim : ((w.chip.received c.tls.sn.toU8.toNat).drop p ++ rest).length ≤ 5 + c.tls.recordSizeLimit.toNat)
    (h0 : t0.toNat + 10 < secs.toNat) :
    (process false fuel worldBus rng secs (w, c)).1 = .error (.err (.mqtt (.stateTimeout .waitConAck))) := by
  have h := (Tls.C99_silent_server fuel rng secs 0 11 11 t0 w c.tls p unread hl hc ht hf ha hst hn rest hrest hr hlim h0 (by decide)).1
  have h1 : (Tls.process false fuel worldBus rng secs (w, c.tls)).1 = .error (.err (.stateTimeout c.tls.state)) := by
    have := congrArg List.head? h
    exact Option.some.inj this
  exact process_err1 false fuel worldBus rng secs h1

/-! ## The hypotheses are met -/

namespace Witness
open Verif.Tls.Witness

/-- The device is in this state, and `process` is called. -/
def step (ir : UInt8) (data : Bytes) : List (Op World X) := [.device fun _ => Thm.tcpWorld ir data, .process true 3 rng 0]

/-- A handshake. -/
def connects : List (Op World X) :=
  step 0 [] ++ step 1 [] ++ step 0 (Spec.Tls.plaintextHandshake sh) ++ step 0 (Spec.Tls.plaintextHandshake ee) ++
    step 0 (Spec.Tls.plaintextHandshake fin)

def fresh : Client X := Client.new X setup.sn setup.srcPort setup.hostname setup.dst setup.identity setup.psk setup.rx

theorem step_run {ir : UInt8} {data : Bytes} {c c' : Tls.Client X} {n : UInt32} (h : good ir data c (.callAfter n) c' = true) (ops : List (Op World X))
    (w : World) : ∃ w' : World, (history worldBus (step ir data ++ ops) (w, { fresh with tls := c })).2 = (history worldBus ops (w', { fresh with tls := c' })).2 := by
  obtain ⟨w', e⟩ := run_of h
  refine ⟨w', ?_⟩
  have e2 := process_eq (c := { fresh with tls := c }) true 3 worldBus rng 0 e
  show (history worldBus ops (process true 3 worldBus rng 0 (Thm.tcpWorld ir data, { fresh with tls := c })).2).2 = _
  rw [e2]
  rfl

theorem step_last (ir : UInt8) (data : Bytes) (w : World) (c : Client X) :
    (history worldBus (step ir data) (w, c)).2 = (process true 3 worldBus rng 0 (Thm.tcpWorld ir data, c)).2 := rfl

theorem device_run (w w' : World) (c : Client X) : (history worldBus [.device fun _ => w'] (w, c)).2 = (w', c) := rfl

theorem fresh_tls : fresh = { fresh with tls := setup.client X } := rfl

/-- The last step, and two requests after it. -/
def last : World × Client X := (process true 3 worldBus rng 0 (Thm.tcpWorld 0 (Spec.Tls.plaintextHandshake fin), { fresh with tls := c4 })).2
def after1 (s : World × Client X) : Except (Fail Error) UInt16 × (World × Client X) := ask false true worldBus [97] s
def after2 (s : World × Client X) : Except (Fail Error) UInt16 := (ask true true worldBus [98] (Thm.tcpWorld 0 [], (after1 s).2.2)).1

theorem first_id : (after1 last).1 = .ok 2 := by decide +kernel
theorem second_id : after2 last = .ok 3 := by decide +kernel

theorem connects_run (w : World) : (history worldBus connects (w, fresh)).2 = last := by
  obtain ⟨w1, e1⟩ := step_run good1 (step 1 [] ++ (step 0 (Spec.Tls.plaintextHandshake sh) ++ (step 0 (Spec.Tls.plaintextHandshake ee) ++
    step 0 (Spec.Tls.plaintextHandshake fin)))) w
  obtain ⟨w2, e2⟩ := step_run good2 (step 0 (Spec.Tls.plaintextHandshake sh) ++ (step 0 (Spec.Tls.plaintextHandshake ee) ++
    step 0 (Spec.Tls.plaintextHandshake fin))) w1
  obtain ⟨w3, e3⟩ := step_run good3 (step 0 (Spec.Tls.plaintextHandshake ee) ++ step 0 (Spec.Tls.plaintextHandshake fin)) w2
  obtain ⟨w4, e4⟩ := step_run good4 (step 0 (Spec.Tls.plaintextHandshake fin)) w3
  unfold connects
  rw [List.append_assoc, List.append_assoc, List.append_assoc]
  rw [fresh_tls, e1, e2, e3, e4, step_last]
  unfold last
  rfl

theorem ids_run (s1 : World × Client X) (h1 : (after1 s1).1 = .ok 2) (h2 : after2 s1 = .ok 3) :
    let r1 := ask false true worldBus [97] s1
    let s2 := (history worldBus [.device fun _ => Thm.tcpWorld 0 []] r1.2).2
    r1.1 = .ok 2 ∧ (ask true true worldBus [98] s2).1 = .ok 3 := by
  intro r1 s2
  refine ⟨h1, ?_⟩
  have h3 : s2 = (Thm.tcpWorld 0 [], r1.2.2) := device_run r1.2.1 _ r1.2.2
  rw [h3]
  exact h2

/-- A new client connects, subscribes to "a", and unsubscribes from "b": the hypotheses of `C108_ids` are met. -/
example : let s1 := (history worldBus connects (Thm.tcpWorld 0 [], fresh)).2
    let r1 := ask false true worldBus [97] s1
    let s2 := (history worldBus [.device fun _ => Thm.tcpWorld 0 []] r1.2).2
    r1.1 = .ok 2 ∧ (ask true true worldBus [98] s2).1 = .ok 3 := by
  rw [connects_run]
  exact ids_run last first_id second_id

/-- A disconnected socket, one that does not answer, a fatal alert, and a silent server. -/
example : (process false 3 worldBus rng 0 (Thm.tcpWorld 2 [], client)).1 = .error (.err (.mqtt .disconnect)) :=
  C109_connection false 3 rng 0 _ client (by decide +kernel) (.inl (by decide +kernel))
example : (process false 3 worldBus rng 0 (Thm.tcpWorld 2 [], { client with tls := { c5 with state := .waitDiscon } })).1 = .error (.err (.mqtt .disconnect)) :=
  C109_connection false 3 rng 0 _ _ (by decide +kernel) (.inl (by decide +kernel))
example : (process false 3 worldBus rng 0 (Thm.tcpWorld 8 [], client)).1 = .error (.err (.mqtt .tcpTimeout)) :=
  C109_connection false 3 rng 0 _ client (by decide +kernel) (.inr (by decide +kernel))
example : (process false 3 worldBus rng 0 (Thm.tcpWorld 0 [21, 3, 3, 0, 2, 2, 40], client)).1 = .error (.err (.serverAlert ⟨.fatal, .handshakeFailure⟩)) :=
  (C109_alert_partial false 3 rng 0 _ client 0 [] (ready _ (by decide)).listens (peace _).quiet ⟨.fatal, .handshakeFailure⟩ 3 3
    List.prefix_rfl (by decide +kernel) (by decide +kernel)).resolve_left (fun h => absurd h.1 (by decide))
example : (process false 3 worldBus rng 11 (Thm.tcpWorld 0 [22, 3, 3, 0, 90, 2, 0], { client with tls := c2, state := .init })).1 =
    .error (.err (.mqtt (.stateTimeout .waitConAck))) :=
  C109_silent_server 3 rng 11 0 _ { client with tls := c2, state := .init } 0 [] (listens2 _ (by decide)) (by decide) rfl (by decide) (alone _) (still _) (by decide +kernel)
    (List.replicate 88 7) (by simp) isRecord_part (by decide +kernel) (by decide)

/-- A client that is not connected: `publish` returns `NotConnected`; one without space in its socket: an alert. -/
example : (tlsWriter worldBus (Thm.tcpWorld 0 [], c4)).1 = .error (.err .notConnected) := rfl
example : (publish worldBus [97] [98] (Thm.tcpWorld 0 [], { client with tls := c4 })).1 = .error (.err (.mqtt .notConnected)) := rfl

end Witness

end Verif.MqttTls
