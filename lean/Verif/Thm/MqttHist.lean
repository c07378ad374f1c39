import Verif.Thm.MqttIn
/-!
# C46, C49, C50: histories of an MQTT client

The device is arbitrary here: every bus access may return anything, including an error.
-/
namespace Verif.Thm
open Verif Hl Verif.Mqtt

section
variable {σ : Type}

/-- What a user can do: call the client, change its identifier, or use the device in any way (e.g. read a published message). -/
inductive Call (σ : Type) where
  | process (secs : UInt32)
  | publish (topic payload : Bytes)
  | subscribe (filter : Bytes)
  | unsubscribe (filter : Bytes)
  | setClientId (id : Bytes)
  | other (use : σ → σ)

/-- What a call returns. -/
inductive Ret where
  | event (x : Except MErr Event)
  | sent (x : Except MErr Unit)
  | id (x : Except MErr UInt16)
  | unit

/-- A call: what it returns (or the error of the bus, or a panic), and the state afterwards. -/
def Call.exec (dbg : Bool) (fuel : Nat) (b : Bus σ) : Call σ → M (σ × Client) Ret
  | .process secs => Mqtt.process dbg fuel b secs >>= fun x => pure (.event x)
  | .publish topic payload => Mqtt.publish b topic payload >>= fun x => pure (.sent x)
  | .subscribe filter => Mqtt.subscribe dbg b filter >>= fun x => pure (.id x)
  | .unsubscribe filter => Mqtt.unsubscribe dbg b filter >>= fun x => pure (.id x)
  | .setClientId id => modC (Client.setClientId · id) >>= fun _ => pure .unit
  | .other use => fun s => (.ok .unit, (use s.1, s.2))

/-- Many calls: what they return, and the state at the end. -/
def runCalls (dbg : Bool) (fuel : Nat) (b : Bus σ) : List (Call σ) → σ × Client → List (Except Err Ret) × (σ × Client)
  | [], s => ([], s)
  | call :: calls, s =>
    ((call.exec dbg fuel b s).1 :: (runCalls dbg fuel b calls (call.exec dbg fuel b s).2).1,
      (runCalls dbg fuel b calls (call.exec dbg fuel b s).2).2)

/-- The connection was reported as established. -/
def Up (o : Except Err Ret) : Prop := o = .ok (.event (.ok .connAck))

/-- The connection was reported as lost or refused, or a new one was begun. -/
def Down (o : Except Err Ret) : Prop :=
  ∃ x, o = .ok (.event x) ∧
    (x = .error .disconnect ∨ x = .error .tcpTimeout ∨ (∃ s, x = .error (.stateTimeout s)) ∨ (∃ r, x = .error (.connAck r)) ∨ ∃ n, x = .ok (.callAfter n))

theorem bindBus {α β : Type} {m : M σ α} {f : α → M (σ × Client) β} {s : σ} {c : Client} (P : Except Err β × (σ × Client) → Prop)
    (herr : ∀ e s', P (.error e, (s', c))) (hok : ∀ a s', P (f a (s', c))) : P ((onBus m >>= f) (s, c)) := by
  rw [M.bind_run]
  unfold onBus
  simp only
  rcases m s with ⟨e | a, s'⟩
  · exact herr e s'
  · exact hok a s'

theorem bindPure {α β : Type} {m : M (σ × Client) α} {g : α → β} {s : σ × Client} (P : Except Err β × (σ × Client) → Prop)
    (h : P ((m s).1.map g, (m s).2)) : P ((m >>= fun x => pure (g x)) s) := by
  rw [M.bind_run]
  rcases hm : m s with ⟨e | a, s'⟩
  · rw [hm] at h; exact h
  · rw [hm] at h; exact h

/-- What a call of `process` may do to the client, with the result. -/
inductive Effect (c : Client) : Except Err (Except MErr Event) → Client → Prop
  /-- an error of the bus or a panic -/
  | fail (e : Err) : Effect c (.error e) c
  /-- connecting was begun -/
  | begin (secs : UInt32) (h : c.state = .init) : Effect c (.ok (.ok (.callAfter 10))) { c with state := .waitConInt, timeout := some secs }
  /-- CONNECT was sent -/
  | connect (secs : UInt32) (h : c.state ≠ .init) : Effect c (.ok (.ok (.callAfter 10))) { c with state := .waitConAck, timeout := some secs }
  /-- CONNACK was received -/
  | up (h : c.state = .waitConAck) : Effect c (.ok (.ok .connAck)) { c with state := .ready, timeout := none }
  /-- waiting -/
  | wait (n t : UInt32) (h : c.timeout = some t) : Effect c (.ok (.ok (.callAfter n))) c
  /-- another event -/
  | event (ev : Event) (h1 : ev ≠ .connAck) (h2 : ∀ n, ev ≠ .callAfter n) (h3 : c.state ≠ .init) : Effect c (.ok (.ok ev)) c
  /-- an error after which the client is reset -/
  | reset (e : MErr) (h : c.state ≠ .init) : Effect c (.ok (.error e)) { c with state := .init, timeout := none }
  /-- an error after which it is not -/
  | keep (e : MErr) (h : e = .protocol ∨ e = .decode ∨ e = .outOfMemory) : Effect c (.ok (.error e)) c

theorem checkTimeout_effect (dbg : Bool) (secs : UInt32) (s : σ) (c : Client) (h : c.state ≠ .init) :
    Effect c (checkTimeout dbg secs (s, c)).1 (checkTimeout dbg secs (s, c)).2.2 := by
  have hg : (getC : M (σ × Client) Client) (s, c) = (.ok c, (s, c)) := rfl
  cases ht : c.timeout with
  | none =>
    have : checkTimeout dbg secs (s, c) = (.ok (.ok .none), (s, c)) := by
      unfold checkTimeout Client.elapsedSecs
      rw [M.bind_ok hg, ht]; rfl
    rw [this]
    exact .event _ (by simp) (by simp) h
  | some t =>
    by_cases hp : dbg = true ∧ secs < t
    · have : checkTimeout dbg secs (s, c) = (.error .panic, (s, c)) := by
        unfold checkTimeout Client.elapsedSecs
        rw [M.bind_ok hg, ht]; dsimp only; rw [if_pos hp]; rfl
      rw [this]; exact .fail _
    · have hrun : checkTimeout dbg secs (s, c) = (if secs - t > timeoutSecs then
          (.ok (.error (.stateTimeout c.state)), (s, { c with state := .init, timeout := none }))
          else (.ok (.ok (.callAfter (timeoutSecs - (secs - t)))), (s, c))) := by
        unfold checkTimeout Client.elapsedSecs
        rw [M.bind_ok hg, ht]; dsimp only; rw [if_neg hp]
        rw [M.bind_ok (show (M.ofExcept (.ok (some (secs - t))) : M (σ × Client) _) (s, c) = (.ok (some (secs - t)), (s, c)) from rfl)]
        dsimp only
        split <;> rfl
      rw [hrun]
      split
      · exact .reset _ h
      · exact .wait _ t ht

/-- The effect of handling what was received; `none` means there is no event. -/
theorem recvFinish_effect (dbg : Bool) (secs : UInt32) (b : Bus σ) (r : Ptrs) (out : RecvOut) (s : σ) (c : Client) (h : c.state ≠ .init)
    (hconn : ∀ code, out = .connAck code → c.state = .waitConAck) (hbad : ∀ e, out = .bad e false → e = .protocol ∨ e = .decode ∨ e = .outOfMemory) :
    let r := (recvFinish b r out >>= fun x =>
      match x with
      | .error e => pure (.error e)
      | .ok (some ev) => pure (.ok ev)
      | .ok none => checkTimeout dbg secs) (s, c)
    Effect c r.1 r.2.2 := by
  cases out with
  | pending => exact checkTimeout_effect dbg secs s c h
  | bad e reset =>
    cases reset with
    | true => exact .reset e h
    | false => exact .keep e (hbad e rfl)
  | connAck code =>
    unfold recvFinish
    dsimp only
    rw [bind_assoc]
    refine bindBus (fun r => Effect c r.1 r.2.2) (fun e s' => .fail e) (fun _ s' => ?_)
    cases hx : ConnectReasonCode.tryFrom code with
    | ok a => exact .reset _ h
    | error e =>
      dsimp only
      split
      · exact .up (hconn code rfl)
      · exact .reset _ h
  | subAck id code =>
    unfold recvFinish
    dsimp only
    rw [bind_assoc]
    exact bindBus (fun r => Effect c r.1 r.2.2) (fun e s' => .fail e) (fun _ s' => .event _ (by simp) (by simp) h)
  | unSubAck id code =>
    unfold recvFinish
    dsimp only
    rw [bind_assoc]
    exact bindBus (fun r => Effect c r.1 r.2.2) (fun e s' => .fail e) (fun _ s' => .event _ (by simp) (by simp) h)
  | publish info => exact .event _ (by simp) (by simp) h
  | ignored =>
    unfold recvFinish
    dsimp only
    rw [bind_assoc]
    exact bindBus (fun r => Effect c r.1 r.2.2) (fun e s' => .fail e) (fun _ s' => checkTimeout_effect dbg secs s' c h)

/-- The results of reading a packet, whatever the device returns. -/
def GoodOut (state : State) (out : RecvOut) : Prop :=
  (∀ code, out = .connAck code → state = .waitConAck) ∧ (∀ e, out = .bad e false → e = .protocol ∨ e = .decode ∨ e = .outOfMemory)

/-- Every result a program can return, whatever it reads, has a property. -/
def Always {α : Type} (P : α → Prop) (p : RProg α) : Prop :=
  ∀ (ρ : Type) (ops : Reader ρ) (s s' : ρ) (a : α), p.run ops s = (.ok a, s') → P a

theorem Always.bind {α β : Type} {P : β → Prop} {p : RProg α} {f : α → RProg β} (h : ∀ a, Always P (f a)) : Always P (p >>= f) := by
  intro ρ ops s s' b hr
  obtain ⟨a, s1, -, h2⟩ := RProg.bind_inv hr
  exact h a ρ ops s1 s' b h2

theorem Always.pure {α : Type} {P : α → Prop} {a : α} (h : P a) : Always P (pure a : RProg α) := by
  intro ρ ops s s' b hr
  injection hr with h1 h2
  injection h1 with h1
  exact h1 ▸ h

theorem Always.throw {α : Type} {P : α → Prop} {e : Err} : Always P (.throw e : RProg α) := by
  intro ρ ops s s' b hr
  injection hr with h1 h2
  cases h1

theorem recvAck_good (state : State) (f : UInt16 → UInt8 → RecvOut) (hf : ∀ id code, GoodOut state (f id code)) :
    Always (GoodOut state) (recvAck f) := by
  refine Always.bind fun buf => ?_
  have hbad : Always (GoodOut state) (pure (.bad .decode false)) := .pure ⟨by simp, by simp⟩
  match buf with
  | [] => exact hbad
  | [_] => exact hbad
  | [_, _] => exact hbad
  | [a, b, n] => exact .bind fun _ => .bind fun _ => .pure (hf _ _)
  | _ :: _ :: _ :: _ :: _ => exact hbad

theorem recvProg_good (dbg : Bool) (state : State) : Always (GoodOut state) (recvProg dbg state) := by
  unfold recvProg
  refine .bind fun buf => ?_
  cases FixedHeader.deser dbg buf with
  | error e =>
    cases e
    · exact .pure ⟨by simp, by simp⟩
    · exact .pure ⟨by simp, by simp⟩
    · exact .throw
  | ok h =>
    refine .bind fun _ => .bind fun remain => ?_
    split
    · exact .pure ⟨by simp, by simp⟩
    · unfold recvBody
      have hign : Always (GoodOut state) (RProg.doSeek (.current (toI16 h.remainingLen)) >>= fun _ => pure .ignored) :=
        .bind fun _ => .pure ⟨by simp, by simp⟩
      cases h.ctrlPkt
      case connack =>
        dsimp only
        unfold recvConnAck
        split
        · exact .pure ⟨by simp, by simp⟩
        · rename_i hst
          exact .bind fun _ => .bind fun _ => .pure ⟨fun _ _ => by simpa using hst, by simp⟩
      case suback =>
        refine recvAck_good state _ fun id code => ?_
        unfold subAckOut
        split <;> exact ⟨by simp, by simp⟩
      case unsuback =>
        refine recvAck_good state _ fun id code => ?_
        unfold unSubAckOut
        split <;> exact ⟨by simp, by simp⟩
      case publish =>
        dsimp only
        unfold recvPublish
        exact .bind fun _ => .bind fun _ => .bind fun _ => .bind fun _ => .bind fun _ => .bind fun _ => .pure ⟨by simp, by simp⟩
      case reserved => exact .pure ⟨by simp, by simp⟩
      all_goals exact hign

theorem receive_effect (dbg : Bool) (secs : UInt32) (b : Bus σ) (s : σ) (c : Client) (h : c.state ≠ .init) :
    Effect c (receive dbg b secs (s, c)).1 (receive dbg b secs (s, c)).2.2 := by
  have hg : ∀ s, (getC : M (σ × Client) Client) (s, c) = (.ok c, (s, c)) := fun _ => rfl
  unfold receive
  rw [M.bind_ok (hg s)]
  refine bindBus (fun r => Effect c r.1 r.2.2) (fun e s' => .fail e) (fun r s' => ?_)
  cases r with
  | none => exact checkTimeout_effect dbg secs s' c h
  | some r =>
    dsimp only
    unfold recv
    rw [bind_assoc, M.bind_ok (hg s'), bind_assoc]
    have hgood := recvProg_good dbg c.state
    rw [M.bind_run]
    unfold onBus mapW5500 onTcpReader
    dsimp only
    rcases hr : (recvProg dbg c.state).run (tcpReaderOps b) (s', r) with ⟨e | out, s2, r2⟩
    · dsimp only
      cases e
      case outOfMemory => exact .keep _ (by simp)
      case unexpectedEof => exact .keep _ (by simp)
      all_goals exact .fail _
    · obtain ⟨g1, g2⟩ := hgood _ _ _ _ _ hr
      exact recvFinish_effect dbg secs b r2 out s2 c h g1 g2

theorem sendConnect_effect (secs : UInt32) (b : Bus σ) (s : σ) (c : Client) (h : c.state ≠ .init) :
    let r := (sendConnect b secs >>= fun x => pure (x.map .callAfter)) (s, c)
    Effect c r.1 r.2.2 := by
  have hg : (getC : M (σ × Client) Client) (s, c) = (.ok c, (s, c)) := rfl
  unfold sendConnect
  rw [bind_assoc, M.bind_ok hg, bind_assoc]
  refine bindBus (fun r => Effect c r.1 r.2.2) (fun e s' => .fail e) (fun size s1 => ?_)
  rw [bind_assoc]
  refine bindBus (fun r => Effect c r.1 r.2.2) (fun e s' => .fail e) (fun r s2 => ?_)
  rw [bind_assoc, M.bind_run]
  unfold onBus mapW5500
  dsimp only
  rcases hr : sendPacket b r (connectProg c.clientId (rxMax size)) s2 with ⟨e | _, s3⟩
  · cases e
    case outOfMemory => exact .keep _ (by simp)
    case unexpectedEof => exact .keep _ (by simp)
    all_goals exact .fail _
  · exact .connect secs h

theorem process_effect (dbg : Bool) (fuel : Nat) (secs : UInt32) (b : Bus σ) (s : σ) (c : Client) :
    Effect c (process dbg fuel b secs (s, c)).1 (process dbg fuel b secs (s, c)).2.2 := by
  have hg : (getC : M (σ × Client) Client) (s, c) = (.ok c, (s, c)) := rfl
  unfold process
  rw [M.bind_ok hg]
  by_cases h : c.state = .init
  · rw [if_pos h]
    unfold tcpConnectMqtt
    rw [bind_assoc, M.bind_ok hg, bind_assoc]
    refine bindBus (fun r => Effect c r.1 r.2.2) (fun e s' => .fail e) (fun simr s1 => ?_)
    rw [bind_assoc]
    refine bindBus (fun r => Effect c r.1 r.2.2) (fun e s' => .fail e) (fun _ s2 => ?_)
    rw [bind_assoc]
    refine bindBus (fun r => Effect c r.1 r.2.2) (fun e s' => .fail e) (fun _ s3 => ?_)
    rw [bind_assoc]
    refine bindBus (fun r => Effect c r.1 r.2.2) (fun e s' => .fail e) (fun _ s4 => ?_)
    exact .begin secs h
  · rw [if_neg h]
    refine bindBus (fun r => Effect c r.1 r.2.2) (fun e s' => .fail e) (fun ir s1 => ?_)
    have hint : ∀ s, Effect c (onInterrupt dbg b secs ir (s, c)).1 (onInterrupt dbg b secs ir (s, c)).2.2 := by
      intro s
      unfold onInterrupt
      split
      · exact .reset _ h
      · split
        · exact sendConnect_effect secs b s c h
        · split
          · exact .reset _ h
          · exact receive_effect dbg secs b s c h
    split
    · exact bindBus (fun r => Effect c r.1 r.2.2) (fun e s' => .fail e) (fun _ s2 => hint s2)
    · exact receive_effect dbg secs b s1 c h

/-- A client that is connected is not waiting for anything. -/
def Settled (c : Client) : Prop := c.state = .ready → c.timeout = none

theorem effect_settled {c c' : Client} {x : Except Err (Except MErr Event)} (h : Effect c x c') (hs : Settled c) : Settled c' := by
  cases h <;> first | exact hs | exact fun _ => rfl | (intro h; cases h)

theorem effect_ready {c c' : Client} {x : Except Err (Except MErr Event)} (h : Effect c x c') (hs : Settled c) (hr : c'.state = .ready) :
    x = .ok (.ok .connAck) ∨ (c.state = .ready ∧ ¬ ∃ y, x = .ok y ∧
      (y = .error .disconnect ∨ y = .error .tcpTimeout ∨ (∃ s, y = .error (.stateTimeout s)) ∨ (∃ r, y = .error (.connAck r)) ∨
        ∃ n, y = .ok (.callAfter n))) := by
  cases h with
  | fail e => exact .inr ⟨hr, by rintro ⟨y, h, -⟩; cases h⟩
  | begin => cases hr
  | connect => cases hr
  | up => exact .inl rfl
  | wait n t h => rw [hs hr] at h; cases h
  | event ev h1 h2 h3 =>
    refine .inr ⟨hr, ?_⟩
    rintro ⟨y, h, h'⟩
    injection h with h; subst h
    rcases h' with h' | h' | ⟨_, h'⟩ | ⟨_, h'⟩ | ⟨n, h'⟩
    · cases h'
    · cases h'
    · cases h'
    · cases h'
    · injection h' with h'; exact h2 n h'
  | reset => cases hr
  | keep e h =>
    refine .inr ⟨hr, ?_⟩
    rintro ⟨y, h1, h'⟩
    injection h1 with h1; subst h1
    rcases h with rfl | rfl | rfl <;> rcases h' with h' | h' | ⟨_, h'⟩ | ⟨_, h'⟩ | ⟨n, h'⟩ <;> cases h'

/-- What `subscribe` and `unsubscribe` may do to the client, with the result. -/
inductive IdEffect (c : Client) (filter : Bytes) : Except Err (Except MErr UInt16) → Client → Prop
  | refused (h : c.state ≠ .ready) : IdEffect c filter (.ok (.error .notConnected)) c
  | fail (e : Err) : IdEffect c filter (.error e) c
  | empty (h : filter = []) : IdEffect c filter (.ok (.ok 0)) c.nextPktId
  | used (x : Except Err (Except MErr UInt16)) (h : ∀ id, x = .ok (.ok id) → id = c.nextPktId.pktId) : IdEffect c filter x c.nextPktId

theorem sendFilter_effect (b : Bus σ) (filter : Bytes) (p : UInt16 → WProg Unit) (s : σ) (c : Client) :
    IdEffect c filter (sendFilter b filter p (s, c)).1 (sendFilter b filter p (s, c)).2.2 := by
  have hg : ∀ (s : σ) (c : Client), (getC : M (σ × Client) Client) (s, c) = (.ok c, (s, c)) := fun _ _ => rfl
  unfold sendFilter
  rw [M.bind_ok (hg s c)]
  by_cases h : c.state = .ready
  · rw [if_pos (by unfold Client.isConnected; simpa using h)]
    refine bindBus (fun r => IdEffect c filter r.1 r.2.2) (fun e s' => .fail e) (fun r s1 => ?_)
    rw [M.bind_ok (show (modC Client.nextPktId : M (σ × Client) Unit) (s1, c) = (.ok (), (s1, c.nextPktId)) from rfl), M.bind_ok (hg s1 _)]
    by_cases hf : filter = []
    · rw [if_pos (by simp [hf])]
      exact .empty hf
    · rw [if_neg (by simp [hf])]
      refine bindBus (fun r => IdEffect c filter r.1 r.2.2) (fun e s' => .used _ (by simp)) (fun x s2 => ?_)
      cases x with
      | error e => exact .used _ (by intro id h; cases h)
      | ok u => exact .used _ (by intro id h; injection h with h; injection h with h; exact h.symm)
  · rw [if_neg (by unfold Client.isConnected; simpa using h)]
    exact .refused h

theorem publish_client (b : Bus σ) (topic payload : Bytes) (s : σ) (c : Client) : (publish b topic payload (s, c)).2.2 = c := by
  unfold publish
  rw [M.bind_ok (show (getC : M (σ × Client) Client) (s, c) = (.ok c, (s, c)) from rfl)]
  split
  · refine bindBus (fun r => r.2.2 = c) (fun e s' => rfl) (fun r s1 => ?_)
    unfold onBus
    rfl
  · rfl

theorem mapRun {α β : Type} (m : M (σ × Client) α) (g : α → β) (s : σ × Client) :
    (m >>= fun x => pure (g x)) s = ((m s).1.map g, (m s).2) := by
  rw [M.bind_run]
  rcases hm : m s with ⟨e | a, s'⟩ <;> rfl

theorem exec_process (dbg : Bool) (fuel : Nat) (b : Bus σ) (secs : UInt32) (s : σ × Client) :
    (Call.process secs).exec dbg fuel b s = ((process dbg fuel b secs s).1.map Ret.event, (process dbg fuel b secs s).2) := mapRun _ _ s
theorem exec_publish (dbg : Bool) (fuel : Nat) (b : Bus σ) (topic payload : Bytes) (s : σ × Client) :
    (Call.publish topic payload).exec dbg fuel b s = ((publish b topic payload s).1.map Ret.sent, (publish b topic payload s).2) := mapRun _ _ s
theorem exec_subscribe (dbg : Bool) (fuel : Nat) (b : Bus σ) (filter : Bytes) (s : σ × Client) :
    (Call.subscribe filter).exec dbg fuel b s = ((subscribe dbg b filter s).1.map Ret.id, (subscribe dbg b filter s).2) := mapRun _ _ s
theorem exec_unsubscribe (dbg : Bool) (fuel : Nat) (b : Bus σ) (filter : Bytes) (s : σ × Client) :
    (Call.unsubscribe filter).exec dbg fuel b s = ((unsubscribe dbg b filter s).1.map Ret.id, (unsubscribe dbg b filter s).2) := mapRun _ _ s

/-- A call that is not `process` leaves the connection state. -/
theorem exec_step (dbg : Bool) (fuel : Nat) (b : Bus σ) (call : Call σ) (s : σ × Client) (hs : Settled s.2) :
    Settled (call.exec dbg fuel b s).2.2 ∧
      ((call.exec dbg fuel b s).2.2.state = .ready →
        Up (call.exec dbg fuel b s).1 ∨ (s.2.state = .ready ∧ ¬ Down (call.exec dbg fuel b s).1)) := by
  obtain ⟨s, c⟩ := s
  have hid : ∀ {filter : Bytes} {x : Except Err (Except MErr UInt16)} {c' : Client}, IdEffect c filter x c' →
      Settled c' ∧ (c'.state = .ready → Up (x.map Ret.id) ∨ (c.state = .ready ∧ ¬ Down (x.map Ret.id))) := by
    intro filter x c' h
    have hd : ¬ Down (x.map Ret.id) := by
      rintro ⟨y, h, -⟩
      cases x <;> cases h
    have hc : c'.state = c.state ∧ c'.timeout = c.timeout := by cases h <;> exact ⟨rfl, rfl⟩
    exact ⟨by unfold Settled; rw [hc.1, hc.2]; exact hs, fun hr => .inr ⟨hc.1 ▸ hr, hd⟩⟩
  cases call with
  | process secs =>
    have h := process_effect dbg fuel secs b s c
    rw [exec_process]
    generalize process dbg fuel b secs (s, c) = r at h
    obtain ⟨x, s', c'⟩ := r
    refine ⟨effect_settled h hs, fun hr => ?_⟩
    rcases effect_ready h hs hr with h1 | ⟨h1, h2⟩
    · left
      change x = _ at h1
      subst h1; rfl
    · refine .inr ⟨h1, ?_⟩
      rintro ⟨y, h3, h4⟩
      cases x with
      | error e => cases h3
      | ok z =>
        injection h3 with h3; injection h3 with h3
        subst h3
        exact h2 ⟨z, rfl, h4⟩
  | publish topic payload =>
    have h := publish_client b topic payload s c
    rw [exec_publish]
    generalize publish b topic payload (s, c) = r at h
    obtain ⟨x, s', c'⟩ := r
    change c' = c at h
    subst h
    refine ⟨hs, fun hr => .inr ⟨hr, ?_⟩⟩
    rintro ⟨y, h, -⟩
    cases x <;> cases h
  | subscribe filter =>
    have h := sendFilter_effect b filter (subscribeProg dbg filter) s c
    rw [exec_subscribe]
    exact hid h
  | unsubscribe filter =>
    have h := sendFilter_effect b filter (unsubscribeProg dbg filter) s c
    rw [exec_unsubscribe]
    exact hid h
  | setClientId id => exact ⟨hs, fun hr => .inr ⟨hr, by rintro ⟨y, h, -⟩; cases h⟩⟩
  | other use => exact ⟨hs, fun hr => .inr ⟨hr, by rintro ⟨y, h, -⟩; cases h⟩⟩

theorem run_connected (dbg : Bool) (fuel : Nat) (b : Bus σ) (calls : List (Call σ)) (s : σ × Client) (hs : Settled s.2)
    (hr : (runCalls dbg fuel b calls s).2.2.state = .ready) :
    (s.2.state = .ready ∧ ∀ o ∈ (runCalls dbg fuel b calls s).1, ¬ Down o) ∨
    (∃ before o after, (runCalls dbg fuel b calls s).1 = before ++ o :: after ∧ Up o ∧ ∀ x ∈ after, ¬ Down x) := by
  induction calls generalizing s with
  | nil => exact .inl ⟨hr, by simp [runCalls]⟩
  | cons call calls ih =>
    obtain ⟨h1, h2⟩ := exec_step dbg fuel b call s hs
    rcases ih _ h1 hr with ⟨h3, h4⟩ | ⟨before, o, after, h3, h4, h5⟩
    · rcases h2 h3 with h2 | ⟨h2, h6⟩
      · exact .inr ⟨[], _, _, rfl, h2, h4⟩
      · refine .inl ⟨h2, ?_⟩
        intro o ho
        rcases List.mem_cons.1 ho with rfl | ho
        · exact h6
        · exact h4 o ho
    · exact .inr ⟨_ :: before, o, after, by rw [runCalls, h3]; rfl, h4, h5⟩

/-- C49: whatever was done with a client since it was made, and whatever the device did: if it says that it is connected, then a
call of `process` returned `ConnAck`, and since then no call reported that the connection was lost, refused or timed out, or that
connecting has begun again. -/
theorem C49_connected (dbg : Bool) (fuel : Nat) (b : Bus σ) (s : σ) (sn : Sn) (srcPort : UInt16) (server : SockAddr) (calls : List (Call σ))
    (h : (runCalls dbg fuel b calls (s, Client.new sn srcPort server)).2.2.isConnected = true) :
    ∃ before o after, (runCalls dbg fuel b calls (s, Client.new sn srcPort server)).1 = before ++ o :: after ∧ Up o ∧
      ∀ x ∈ after, ¬ Down x := by
  rcases run_connected dbg fuel b calls (s, Client.new sn srcPort server) (by intro h; cases h) (by unfold Client.isConnected at h; simpa using h)
    with ⟨h, -⟩ | h
  · cases h
  · exact h

/-- C49: while the client says that it is not connected, `publish`, `subscribe` and `unsubscribe` return `NotConnected`; they neither
use the device nor change the client. -/
theorem C49_refused (dbg : Bool) (b : Bus σ) (s : σ) (c : Client) (topic payload filter : Bytes) (h : c.isConnected = false) :
    publish b topic payload (s, c) = (.ok (.error .notConnected), (s, c)) ∧
    subscribe dbg b filter (s, c) = (.ok (.error .notConnected), (s, c)) ∧
    unsubscribe dbg b filter (s, c) = (.ok (.error .notConnected), (s, c)) := by
  have hg : (getC : M (σ × Client) Client) (s, c) = (.ok c, (s, c)) := rfl
  have hf : ∀ p, sendFilter b filter p (s, c) = (.ok (.error .notConnected), (s, c)) := by
    intro p
    unfold sendFilter
    rw [M.bind_ok hg, if_neg (by simp [h])]; rfl
  refine ⟨?_, hf _, hf _⟩
  unfold publish
  rw [M.bind_ok hg, if_neg (by simp [h])]; rfl

theorem exec_stays (dbg : Bool) (fuel : Nat) (b : Bus σ) (call : Call σ) (s : σ × Client) (hs : Settled s.2) (hr : s.2.state = .ready)
    (ho : ∀ x, (call.exec dbg fuel b s).1 = .ok (.event x) → (∀ e, x ≠ .error e) ∧ ∀ n, x ≠ .ok (.callAfter n)) :
    (call.exec dbg fuel b s).2.2.state = .ready := by
  obtain ⟨s, c⟩ := s
  have hid : ∀ {filter : Bytes} {x : Except Err (Except MErr UInt16)} {c' : Client}, IdEffect c filter x c' → c'.state = .ready := by
    intro filter x c' h
    cases h <;> exact hr
  cases call with
  | process secs =>
    have h := process_effect dbg fuel secs b s c
    revert ho
    rw [exec_process]
    generalize process dbg fuel b secs (s, c) = r at h
    obtain ⟨x, s', c'⟩ := r
    intro ho
    change c'.state = .ready
    change Effect c x c' at h
    cases h with
    | fail e => exact hr
    | begin => exact absurd rfl ((ho _ rfl).2 10)
    | connect => exact absurd rfl ((ho _ rfl).2 10)
    | up => rfl
    | wait n t h => exact hr
    | event ev h1 h2 h3 => exact hr
    | reset e => exact absurd rfl ((ho _ rfl).1 e)
    | keep => exact hr
  | publish topic payload =>
    have h := publish_client b topic payload s c
    rw [exec_publish]
    exact (congrArg Client.state h).trans hr
  | subscribe filter =>
    rw [exec_subscribe]
    exact hid (sendFilter_effect b filter (subscribeProg dbg filter) s c)
  | unsubscribe filter =>
    rw [exec_unsubscribe]
    exact hid (sendFilter_effect b filter (unsubscribeProg dbg filter) s c)
  | setClientId id => exact hr
  | other use => exact hr

theorem run_append (dbg : Bool) (fuel : Nat) (b : Bus σ) (c1 c2 : List (Call σ)) (s : σ × Client) :
    runCalls dbg fuel b (c1 ++ c2) s =
      ((runCalls dbg fuel b c1 s).1 ++ (runCalls dbg fuel b c2 (runCalls dbg fuel b c1 s).2).1,
        (runCalls dbg fuel b c2 (runCalls dbg fuel b c1 s).2).2) := by
  induction c1 generalizing s with
  | nil => rfl
  | cons c c1 ih => rw [List.cons_append, runCalls, ih]; rfl

theorem run_settled (dbg : Bool) (fuel : Nat) (b : Bus σ) (calls : List (Call σ)) (s : σ × Client) (hs : Settled s.2) :
    Settled (runCalls dbg fuel b calls s).2.2 := by
  induction calls generalizing s with
  | nil => exact hs
  | cons c cs ih => exact ih _ (exec_step dbg fuel b c s hs).1

/-- C49: once `process` returned `ConnAck`, the client stays connected as long as every call of `process` returns an event and none
says that connecting has begun again (bus errors do not matter). -/
theorem C49_stays (dbg : Bool) (fuel : Nat) (b : Bus σ) (s : σ) (sn : Sn) (srcPort : UInt16) (server : SockAddr) (first : List (Call σ)) (secs : UInt32)
    (later : List (Call σ)) :
    let s1 := (runCalls dbg fuel b first (s, Client.new sn srcPort server)).2
    let r := (Call.process secs).exec dbg fuel b s1
    Up r.1 → (∀ o ∈ (runCalls dbg fuel b later r.2).1, ∀ x, o = .ok (.event x) → (∀ e, x ≠ .error e) ∧ ∀ n, x ≠ .ok (.callAfter n)) →
    (runCalls dbg fuel b later r.2).2.2.isConnected = true := by
  intro s1 r hup hall
  have hs1 : Settled s1.2 := run_settled dbg fuel b first _ (by intro h; cases h)
  have hs : Settled r.2.2 := (exec_step dbg fuel b _ s1 hs1).1
  have hr : r.2.2.state = .ready := by
    have h := process_effect dbg fuel secs b s1.1 s1.2
    change Up (((process dbg fuel b secs >>= fun x => pure (Ret.event x)) s1).1) at hup
    change (((process dbg fuel b secs >>= fun x => pure (Ret.event x)) s1).2).2.state = .ready
    rw [mapRun] at hup ⊢
    change Effect s1.2 (process dbg fuel b secs s1).1 (process dbg fuel b secs s1).2.2 at h
    generalize process dbg fuel b secs s1 = q at h hup
    obtain ⟨x, s', c'⟩ := q
    have hx : x = .ok (.ok .connAck) := by
      cases x with
      | error e => cases hup
      | ok z => injection hup with h; injection h with h; subst h; rfl
    change Effect s1.2 x c' at h
    change c'.state = .ready
    subst hx
    cases h with
    | up => rfl
    | event ev h1 => exact absurd rfl h1
  clear hup
  generalize r.2 = s2 at hall hs hr
  have : (runCalls dbg fuel b later s2).2.2.state = .ready := by
    induction later generalizing s2 with
    | nil => exact hr
    | cons c cs ih =>
      refine ih _ (fun o ho => hall o (List.mem_cons_of_mem _ ho)) (exec_step dbg fuel b c s2 hs).1 ?_
      exact exec_stays dbg fuel b c s2 hs hr (hall _ List.mem_cons_self)
  unfold Client.isConnected
  simpa using this

/-- C50 for the errors `Disconnect`, `TcpTimeout`, `StateTimeout` and `ConnAck`: after `process` returned one of them the client is in its
initial state, from which the next call of `process` connects again (C45).  Missing: `Protocol` and `Decode`, see `C50_not`. -/
theorem C50_partial (dbg : Bool) (fuel : Nat) (secs : UInt32) (b : Bus σ) (s : σ) (c : Client) (e : MErr)
    (h : (process dbg fuel b secs (s, c)).1 = .ok (.error e))
    (he : e = .disconnect ∨ e = .tcpTimeout ∨ (∃ s, e = .stateTimeout s) ∨ ∃ r, e = .connAck r) :
    (process dbg fuel b secs (s, c)).2.2 = { c with state := .init, timeout := none } := by
  have hx := process_effect dbg fuel secs b s c
  generalize process dbg fuel b secs (s, c) = r at h hx
  obtain ⟨x, s', c'⟩ := r
  change x = _ at h
  subst h
  change Effect c _ c' at hx
  change c' = _
  cases hx with
  | reset => rfl
  | keep _ h =>
    rcases h with rfl | rfl | rfl <;> rcases he with h | h | ⟨_, h⟩ | ⟨_, h⟩ <;> cases h

/-- C50, every error: after an error of `process` the client is in its initial state or exactly as before, the latter only after
`Protocol`, `Decode` and `OutOfMemory`. -/
theorem C50_or_unchanged_partial (dbg : Bool) (fuel : Nat) (secs : UInt32) (b : Bus σ) (s : σ) (c : Client) (e : MErr)
    (h : (process dbg fuel b secs (s, c)).1 = .ok (.error e)) :
    (process dbg fuel b secs (s, c)).2.2 = { c with state := .init, timeout := none } ∨
      ((process dbg fuel b secs (s, c)).2.2 = c ∧ (e = .protocol ∨ e = .decode ∨ e = .outOfMemory)) := by
  have hx := process_effect dbg fuel secs b s c
  generalize process dbg fuel b secs (s, c) = r at h hx
  obtain ⟨x, s', c'⟩ := r
  change x = _ at h
  subst h
  change Effect c _ c' at hx
  change c' = _ ∨ c' = _ ∧ _
  cases hx with
  | reset => exact .inl rfl
  | keep _ h => exact .inr ⟨rfl, h⟩

/-! ## C46 -/

/-- A call that asks the server for something and gets an identifier for it. -/
def Call.request : Call σ → Bool
  | .subscribe _ => true
  | .unsubscribe _ => true
  | _ => false

/-- The filter of a request. -/
def Call.filter : Call σ → Bytes
  | .subscribe f => f
  | .unsubscribe f => f
  | _ => []

/-- The position of the last identifier in the cycle 1, 2, …, 65535. -/
def idPos (c : Client) : Nat := c.pktId.toNat - 1

theorem next_pos (c : Client) (h : c.pktId ≠ 0) : c.nextPktId.pktId ≠ 0 ∧ idPos c.nextPktId = (idPos c + 1) % 65535 := by
  have hb := u16_lt c.pktId
  have h0 : c.pktId.toNat ≠ 0 := fun e => h (u16_ext (by simpa using e))
  unfold idPos Client.nextPktId
  dsimp only
  by_cases h1 : c.pktId = 65535
  · rw [if_pos h1, h1]; decide
  · rw [if_neg h1]
    have h2 : c.pktId.toNat ≠ 65535 := fun e => h1 (u16_ext (by simpa using e))
    have h3 : (c.pktId + 1).toNat = c.pktId.toNat + 1 := by
      rw [UInt16.toNat_add]; change (_ + 1) % 65536 = _; omega
    refine ⟨fun e => ?_, ?_⟩
    · have := congrArg UInt16.toNat e
      rw [h3] at this; simp at this
    · rw [h3]; omega

theorem effect_id {c c' : Client} {x : Except Err (Except MErr Event)} (h : Effect c x c') : c'.pktId = c.pktId := by cases h <;> rfl

/-- A call advances the identifier by at most one place; a request that returns an identifier advances it by exactly one, and returns
the new one. -/
theorem exec_id (dbg : Bool) (fuel : Nat) (b : Bus σ) (call : Call σ) (s : σ × Client) (h : s.2.pktId ≠ 0) :
    (call.exec dbg fuel b s).2.2.pktId ≠ 0 ∧
      (∃ k, k ≤ (if call.request then 1 else 0) ∧ idPos (call.exec dbg fuel b s).2.2 = (idPos s.2 + k) % 65535) ∧
      (∀ id, (call.exec dbg fuel b s).1 = .ok (.id (.ok id)) → call.filter ≠ [] →
        id = (call.exec dbg fuel b s).2.2.pktId ∧ idPos (call.exec dbg fuel b s).2.2 = (idPos s.2 + 1) % 65535) := by
  obtain ⟨s, c⟩ := s
  change c.pktId ≠ 0 at h
  have hpos : idPos c < 65535 := by have := u16_lt c.pktId; unfold idPos; omega
  have hsame : ∀ {c' : Client} {x : Except Err Ret} {call : Call σ}, c'.pktId = c.pktId → (∀ y, x ≠ .ok (.id y)) →
      c'.pktId ≠ 0 ∧ (∃ k, k ≤ (if call.request then 1 else 0) ∧ idPos c' = (idPos c + k) % 65535) ∧
      (∀ id, x = .ok (.id (.ok id)) → call.filter ≠ [] → id = c'.pktId ∧ idPos c' = (idPos c + 1) % 65535) := by
    intro c' x call hc hx
    refine ⟨hc ▸ h, ⟨0, Nat.zero_le _, ?_⟩, fun id he => absurd he (hx _)⟩
    unfold idPos at hpos ⊢
    rw [hc, Nat.add_zero, Nat.mod_eq_of_lt hpos]
  have hid : ∀ {filter : Bytes} {x : Except Err (Except MErr UInt16)} {c' : Client}, IdEffect c filter x c' →
      c'.pktId ≠ 0 ∧ (∃ k, k ≤ 1 ∧ idPos c' = (idPos c + k) % 65535) ∧
      (∀ id, x.map Ret.id = .ok (.id (.ok id)) → filter ≠ [] → id = c'.pktId ∧ idPos c' = (idPos c + 1) % 65535) := by
    intro filter x c' hx
    obtain ⟨n1, n2⟩ := next_pos c h
    cases hx with
    | refused hr => exact ⟨h, ⟨0, by omega, (Nat.mod_eq_of_lt hpos).symm⟩, fun id he => by cases he⟩
    | fail e => exact ⟨h, ⟨0, by omega, (Nat.mod_eq_of_lt hpos).symm⟩, fun id he => by cases he⟩
    | empty hf => exact ⟨n1, ⟨1, by omega, n2⟩, fun id he hf' => absurd hf hf'⟩
    | used x hx =>
      refine ⟨n1, ⟨1, by omega, n2⟩, fun id he _ => ⟨?_, n2⟩⟩
      cases x with
      | error e => cases he
      | ok y =>
        injection he with he; injection he with he; subst he
        exact hx id rfl
  cases call with
  | process secs =>
    have h := process_effect dbg fuel secs b s c
    rw [exec_process]
    exact hsame (effect_id h) (by intro y hy; cases hx : (process dbg fuel b secs (s, c)).1 <;> rw [hx] at hy <;> cases hy)
  | publish topic payload =>
    have h := publish_client b topic payload s c
    rw [exec_publish]
    exact hsame (congrArg Client.pktId h) (by intro y hy; cases hx : (publish b topic payload (s, c)).1 <;> rw [hx] at hy <;> cases hy)
  | subscribe filter =>
    rw [exec_subscribe]
    exact hid (sendFilter_effect b filter (subscribeProg dbg filter) s c)
  | unsubscribe filter =>
    rw [exec_unsubscribe]
    exact hid (sendFilter_effect b filter (unsubscribeProg dbg filter) s c)
  | setClientId id => exact hsame rfl (by intro y hy; cases hy)
  | other use => exact hsame rfl (by intro y hy; cases hy)

theorem run_id (dbg : Bool) (fuel : Nat) (b : Bus σ) (calls : List (Call σ)) (s : σ × Client) (h : s.2.pktId ≠ 0) :
    (runCalls dbg fuel b calls s).2.2.pktId ≠ 0 ∧
      ∃ k, k ≤ (calls.filter Call.request).length ∧ idPos (runCalls dbg fuel b calls s).2.2 = (idPos s.2 + k) % 65535 := by
  induction calls generalizing s with
  | nil =>
    refine ⟨h, 0, by simp, ?_⟩
    have := u16_lt s.2.pktId
    rw [Nat.add_zero, Nat.mod_eq_of_lt (by unfold idPos; omega)]; rfl
  | cons call calls ih =>
    obtain ⟨h1, ⟨k, h2, h3⟩, -⟩ := exec_id dbg fuel b call s h
    obtain ⟨h4, k', h5, h6⟩ := ih _ h1
    refine ⟨h4, k + k', ?_, ?_⟩
    · rw [List.filter_cons]
      split
      · rename_i hr
        rw [hr, if_pos rfl] at h2
        rw [List.length_cons]; omega
      · rename_i hr
        rw [if_neg hr] at h2
        omega
    · rw [runCalls, h6, h3]; omega

/-- C46: whatever was done with a client since it was made, and whatever the device did: if two calls of `subscribe` or `unsubscribe` (not
with the empty filter) return identifiers, and there were fewer than 65534 such calls between them, the identifiers are different, and not 0. -/
theorem C46_ids (dbg : Bool) (fuel : Nat) (b : Bus σ) (s : σ) (sn : Sn) (srcPort : UInt16) (server : SockAddr)
    (first between : List (Call σ)) (call1 call2 : Call σ) (id1 id2 : UInt16)
    (hf1 : call1.filter ≠ []) (hf2 : call2.filter ≠ []) (hn : (between.filter Call.request).length < 65534) :
    let s1 := (runCalls dbg fuel b first (s, Client.new sn srcPort server)).2
    let r1 := call1.exec dbg fuel b s1
    let s2 := (runCalls dbg fuel b between r1.2).2
    let r2 := call2.exec dbg fuel b s2
    r1.1 = .ok (.id (.ok id1)) → r2.1 = .ok (.id (.ok id2)) → id1 ≠ 0 ∧ id2 ≠ 0 ∧ id1 ≠ id2 := by
  intro s1 r1 s2 r2 h1 h2
  obtain ⟨a1, -⟩ := run_id dbg fuel b first (s, Client.new sn srcPort server) (by change (1 : UInt16) ≠ 0; decide)
  obtain ⟨b1, -, b2⟩ := exec_id dbg fuel b call1 s1 a1
  obtain ⟨c1, k, c2, c3⟩ := run_id dbg fuel b between r1.2 b1
  obtain ⟨d1, -, d2⟩ := exec_id dbg fuel b call2 s2 c1
  obtain ⟨e1, -⟩ := b2 id1 h1 hf1
  obtain ⟨e2, e3⟩ := d2 id2 h2 hf2
  refine ⟨by rw [e1]; exact b1, by rw [e2]; exact d1, fun he => ?_⟩
  rw [e1, e2] at he
  have hp : idPos r1.2.2 = idPos r2.2.2 := by unfold idPos; exact congrArg (fun x : UInt16 => x.toNat - 1) he
  have hlt : idPos r1.2.2 < 65535 := by have := u16_lt r1.2.2.pktId; unfold idPos; omega
  change idPos s2.2 = _ at c3
  change idPos r2.2.2 = _ at e3
  rw [c3] at e3
  omega

end

/-! ## A reported connection -/

open Spec

theorem ofNibble_connack (x : UInt8) : CtrlPkt.ofNibble (x >>> 4) = .connack → x.toNat / 16 = 2 :=
  forall_u8 (p := fun x => CtrlPkt.ofNibble (x >>> 4) = .connack → x.toNat / 16 = 2) (by decide +kernel) x

theorem recv_connack {dbg : Bool} {state : State} {D : Bytes} {code : UInt8} {cur : Spec.Cursor}
    (h : (recvProg dbg state).run Spec.cursorOps ⟨D, 0⟩ = (.ok (.connAck code), cur)) :
    state = .waitConAck ∧ ∃ b0 v n sp rest, D = b0 :: (v ++ sp :: code :: rest) ∧ b0.toNat / 16 = 2 ∧ Spec.Mqtt.IsVbi v n ∧ n ≤ 65535 := by
  unfold recvProg at h
  rw [RProg.bind_ok (cur_read _ _ _), List.drop_zero] at h
  rcases D with _ | ⟨b0, D⟩
  · cases h
  rw [List.take_succ_cons] at h
  rcases vbi_or D 4 with ⟨pre, rest, n, rfl, e2, e3⟩ | hm
  · have htake : (pre ++ rest).take 4 = pre ++ rest.take (4 - pre.length) := by rw [List.take_append, List.take_of_length_le e3]
    rw [htake] at h
    by_cases hn : n ≤ 65535
    · rw [deser_ok dbg b0 pre _ n e2 e3 hn] at h
      dsimp only at h
      obtain ⟨_, c2, h2, h⟩ := RProg.bind_inv h
      obtain ⟨-, rfl⟩ := cur_seekStart_inv h2
      rw [RProg.bind_ok (cur_remain _ _)] at h
      have hlen : (UInt8.toUInt16 (UInt8.ofNat (pre.length + 1))).toNat = pre.length + 1 := by
        rw [UInt8.toNat_toUInt16, UInt8.toNat_ofNat']; omega
      rw [hlen] at h
      split at h
      · cases h
      · unfold recvBody at h
        dsimp only at h
        have hseek : ∀ x : UInt16, (RProg.doSeek (.current (toI16 x)) >>= fun _ => pure RecvOut.ignored).run Spec.cursorOps
            ⟨b0 :: (pre ++ rest), pre.length + 1⟩ ≠ (.ok (.connAck code), cur) := by
          intro x h
          obtain ⟨_, _, _, h⟩ := RProg.bind_inv h
          cases h
        have hack : ∀ f : UInt16 → UInt8 → RecvOut, (∀ a b, f a b ≠ .connAck code) → (recvAck f).run Spec.cursorOps
            ⟨b0 :: (pre ++ rest), pre.length + 1⟩ ≠ (.ok (.connAck code), cur) := by
          intro f hf h
          have := recvAck_good
          unfold recvAck at h
          obtain ⟨buf, c4, _, h⟩ := RProg.bind_inv h
          split at h
          · obtain ⟨_, _, _, h⟩ := RProg.bind_inv h
            obtain ⟨_, _, _, h⟩ := RProg.bind_inv h
            injection h with h _
            injection h with h
            exact hf _ _ h
          · cases h
        cases hc : CtrlPkt.ofNibble (b0 >>> 4) <;> rw [hc] at h <;> dsimp only at h
        case connack =>
          have hb := ofNibble_connack b0 hc
          unfold recvConnAck at h
          split at h
          · cases h
          · rename_i hst
            obtain ⟨buf, c4, h5, h⟩ := RProg.bind_inv h
            obtain ⟨k1, k2, rfl⟩ := cur_readExact_inv h5
            obtain ⟨_, c5, h6, h7⟩ := RProg.bind_inv h
            injection h7 with h7 _
            injection h7 with h7
            injection h7 with h7
            rw [List.drop_succ_cons, List.drop_left] at k2
            rw [List.length_cons, List.length_append] at k1
            rcases rest with _ | ⟨sp, _ | ⟨code', rest⟩⟩
            · simp at k1
            · simp at k1
            · subst k2
              have h7 : code' = code := h7
              subst h7
              exact ⟨by simpa using hst, b0, pre, n, sp, rest, rfl, hb, e2, hn⟩
        case reserved => cases h
        case suback => exact absurd h (hack _ (by intro a b; unfold subAckOut; split <;> simp))
        case unsuback => exact absurd h (hack _ (by intro a b; unfold unSubAckOut; split <;> simp))
        case publish =>
          unfold recvPublish at h
          obtain ⟨_, _, _, h⟩ := RProg.bind_inv h
          obtain ⟨_, _, _, h⟩ := RProg.bind_inv h
          obtain ⟨_, _, _, h⟩ := RProg.bind_inv h
          obtain ⟨_, _, _, h⟩ := RProg.bind_inv h
          obtain ⟨_, _, _, h⟩ := RProg.bind_inv h
          obtain ⟨_, _, _, h⟩ := RProg.bind_inv h
          cases h
        all_goals exact absurd h (hseek _)
    · rw [deser_long dbg b0 pre _ n e2 e3 (by omega)] at h
      cases h
  · obtain ⟨e, e1, -⟩ := (decode_gen dbg 4 (by omega) (D.take 4) 1 0 0 (by decide) (by decide)).2 (by rw [List.take_take]; exact hm)
    change decodeVbi dbg (D.take 4) = _ at e1
    have hd : FixedHeader.deser dbg (b0 :: D.take 4) = .error e := by
      unfold FixedHeader.deser
      dsimp only
      rw [e1]
    rw [hd] at h
    cases e <;> cases h

theorem checkTimeout_not_connack (dbg : Bool) (secs : UInt32) (w : Spec.World) (c : Client) :
    (checkTimeout dbg secs (w, c)).1 ≠ .ok (.ok .connAck) := by
  intro h
  have hg : (getC : M (Spec.World × Client) Client) (w, c) = (.ok c, (w, c)) := rfl
  unfold checkTimeout Client.elapsedSecs at h
  rw [M.bind_ok hg] at h
  cases ht : c.timeout with
  | none => rw [ht] at h; cases h
  | some t =>
    rw [ht] at h
    dsimp only at h
    by_cases hp : dbg = true ∧ secs < t
    · rw [if_pos hp] at h; cases h
    · rw [if_neg hp] at h
      rw [M.bind_ok (show (M.ofExcept (.ok (some (secs - t))) : M (Spec.World × Client) _) (w, c) = (.ok (some (secs - t)), (w, c)) from rfl)] at h
      dsimp only at h
      split at h <;> cases h

theorem finish_connack {w : Spec.World} {r : Ptrs} {cur : Spec.Cursor} {base p : Nat} (dbg : Bool) (secs : UInt32) (c : Client)
    (h : RdRel (w, r) cur base p p) (hs : r.sn = c.sn) (out : RecvOut)
    (he : ((recvFinish worldBus r out >>= after dbg secs) (w, c)).1 = .ok (.ok .connAck)) : out = .connAck 0 := by
  obtain ⟨w', e1, -⟩ := finish_done c h hs
  cases out with
  | pending => exact absurd he (checkTimeout_not_connack dbg secs w c)
  | bad e reset => cases reset <;> cases he
  | connAck code =>
    unfold recvFinish at he
    dsimp only at he
    rw [bind_assoc, M.bind_ok e1] at he
    cases hx : ConnectReasonCode.tryFrom code with
    | ok a => rw [hx] at he; cases he
    | error e =>
      rw [hx] at he
      dsimp only at he
      by_cases h0 : e = 0
      · have : ∀ code : UInt8, ConnectReasonCode.tryFrom code = .error 0 → code = 0 :=
          forall_u8 (p := fun code => ConnectReasonCode.tryFrom code = .error 0 → code = 0) (by decide +kernel)
        rw [this code (h0 ▸ hx)]
      · rw [if_neg h0] at he; cases he
  | subAck id code =>
    unfold recvFinish at he
    dsimp only at he
    rw [bind_assoc, M.bind_ok e1] at he; cases he
  | unSubAck id code =>
    unfold recvFinish at he
    dsimp only at he
    rw [bind_assoc, M.bind_ok e1] at he; cases he
  | publish info => cases he
  | ignored =>
    unfold recvFinish at he
    dsimp only at he
    rw [bind_assoc, M.bind_ok e1] at he
    exact absurd he (checkTimeout_not_connack dbg secs w' c)

/-- C49: `process` reports a connection only when the next bytes received from the server begin a CONNACK (type 2) with the reason
code 0, while the client waits for it. -/
theorem C49_connack (dbg : Bool) (fuel : Nat) (secs : UInt32) (w : Spec.World) (c : Client) (p : Nat) (hrx : Spec.RxState w.chip c.sn.toU8.toNat p) :
    let k := c.sn.toU8.toNat
    let r := process dbg fuel worldBus secs (w, c)
    r.1 = .ok (.ok .connAck) →
    c.state = .waitConAck ∧ r.2.2.isConnected = true ∧
    ∃ b0 v n sp, b0.toNat / 16 = 2 ∧ Spec.Mqtt.IsVbi v n ∧ b0 :: (v ++ [sp, 0]) <+: (r.2.1.chip.received k).drop p := by
  intro k r he
  have hs := process_effect dbg fuel secs worldBus w c
  change Effect c r.1 r.2.2 at hs
  rw [he] at hs
  have hst : c.state = .waitConAck ∧ r.2.2.isConnected = true := by
    generalize r.2.2 = c' at hs
    cases hs with
    | up h => exact ⟨h, rfl⟩
    | event ev h1 => exact absurd rfl h1
  refine ⟨hst.1, hst.2, ?_⟩
  obtain ⟨w1, a1, a2⟩ := process_run dbg fuel secs w c (by rw [hst.1]; simp)
  obtain ⟨base, hb⟩ := hrx.at
  change RxAt w.chip c.sn.idx base p at hb
  have hb1 := a1.rx _ _ hb
  have hrec : r = receive dbg worldBus secs (w1, c) := by
    change r = _ at a2
    rw [a2] at he ⊢
    unfold onInterrupt at he ⊢
    split at he
    · cases he
    · rename_i q1
      rw [if_neg q1]
      split at he
      · rw [mapRun] at he
        rcases hx : (sendConnect worldBus secs (w1, c)).1 with e | x
        · rw [hx] at he; cases he
        · rw [hx] at he
          cases x <;> cases he
      · rename_i q2
        rw [if_neg q2]
        split at he
        · cases he
        · rename_i q3
          rw [if_neg q3]
  rcases receive_run dbg secs w1 c base p hb1 with ⟨w2, r1, -⟩ | ⟨w2, r1, -⟩ | ⟨D, w2, w3, l1, l2, -, -, d1, d2, r1, r2⟩
  · rw [hrec, r1] at he; cases he
  · rw [hrec, r1] at he
    exact absurd he (checkTimeout_not_connack dbg secs w2 c)
  · rcases hrun : (recvProg dbg c.state).run Spec.cursorOps ⟨D, 0⟩ with ⟨e | out, cur⟩
    · rw [hrec, r2 e cur hrun] at he
      cases e <;> cases he
    · obtain ⟨r', s1, s2, s3⟩ := r1 out cur hrun
      rw [hrec, s3] at he
      have := finish_connack dbg secs c s2 s1 out he
      subst this
      obtain ⟨-, b0, v, n, sp, rest, g1, g2, g3, -⟩ := recv_connack hrun
      refine ⟨b0, v, n, sp, g2, g3, ?_⟩
      have hpre : D <+: (r.2.1.chip.received k).drop p := by
        rw [hrec, s3]
        refine d2.trans (prefix_drop ?_ p)
        exact ((l2.calm c.sn.idx).recvd).trans (finish_received dbg secs c s2 s1 _)
      refine List.IsPrefix.trans ⟨rest, ?_⟩ hpre
      rw [g1]; simp

/-! ## The hypotheses are met -/

/-- The network connects the socket and then answers the CONNECT and a SUBSCRIBE. -/
def mqttCalls : List (Call World) :=
  [.process 0, .other (fun _ => tcpWorld 1 []), .process 1, .publish [116] [1],
    .other (fun _ => tcpWorld 0 [0x20, 3, 0, 0, 0]), .process 2, .subscribe [116], .unsubscribe [117], .subscribe [],
    .other (fun _ => tcpWorld 0 [0x90, 4, 0, 2, 0, 0]), .process 3, .subscribe [118]]

example : (runCalls true 9 worldBus mqttCalls (sampleWorld, Client.new .sn3 33333 ⟨⟨10, 0, 0, 1⟩, 1883⟩)).2.2.isConnected = true := by
  decide +kernel
example : (runCalls true 9 worldBus (mqttCalls ++ [.other (fun _ => tcpWorld 2 []), .process 4])
    (sampleWorld, Client.new .sn3 33333 ⟨⟨10, 0, 0, 1⟩, 1883⟩)).2.2.isConnected = false := by decide +kernel

deriving instance DecidableEq for Ret
/-- What the calls return. -/
example : (runCalls true 9 worldBus mqttCalls (sampleWorld, Client.new .sn3 33333 ⟨⟨10, 0, 0, 1⟩, 1883⟩)).1 =
    [.ok (.event (.ok (.callAfter 10))), .ok .unit, .ok (.event (.ok (.callAfter 10))), .ok (.sent (.error .notConnected)), .ok .unit,
      .ok (.event (.ok .connAck)), .ok (.id (.ok 2)), .ok (.id (.ok 3)), .ok (.id (.ok 0)), .ok .unit,
      .ok (.event (.ok (.subAck 2 .qoS0))), .ok (.id (.ok 5))] := by decide +kernel

end Verif.Thm
