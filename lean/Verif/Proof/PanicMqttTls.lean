import Verif.Proof.PanicTlsSend
import Verif.Proof.TlsReader
import Verif.Proof.TlsInv
/-!
# Panics of the MQTT client over TLS when it receives
-/
namespace Verif.MqttTls
open Verif Hl Tls
open _root_.Verif.Spec (Cursor cursorOps seekTarget)

variable {σ S : Type} {x : Crypto} {α β : Type}

/-! ## Programs on the reader -/

/-- What a cursor does is among what `RSafe` allows. -/
theorem rsafe_cursor {L : Nat} (hL : L ≤ 32767) {Q : α → Nat → Prop} (prog : RProg α) : ∀ c : Cursor, c.data.length = L → c.pos ≤ L →
    RSafe L Q prog c.pos →
    (∀ e, (prog.run cursorOps c).1 = .error e → Fine e) ∧ ∀ a, (prog.run cursorOps c).1 = .ok a → Q a (prog.run cursorOps c).2.pos := by
  induction prog with
  | ret r =>
    intro c hd hp h
    rcases r with e | a
    · exact ⟨fun e' h' => by injection h' with h'; rw [← h']; exact h, (fun _ h => nomatch h)⟩
    · exact ⟨(fun _ h => nomatch h), fun a' h' => by injection h' with h'; rw [← h']; exact h⟩
  | read n k ih =>
    intro c hd hp h
    have hl : ((c.data.drop c.pos).take n).length = min n (L - c.pos) := by simp [hd]
    exact ih _ { c with pos := c.pos + ((c.data.drop c.pos).take n).length } hd (by show _ + _ ≤ L; omega) (h.1 _ hl)
  | readExact n k ih =>
    intro c hd hp h
    simp only [RProg.run]
    by_cases hn : n ≤ c.data.length - c.pos
    · have e : cursorOps.readExact n c = (.ok ((c.data.drop c.pos).take n), { c with pos := c.pos + n }) := if_pos hn
      rw [e]
      have h1 := h.1 ((c.data.drop c.pos).take n) (by simp; omega) (by omega)
      rw [show min n 65535 = n by omega] at h1
      exact ih _ { c with pos := c.pos + n } hd (by show _ + _ ≤ L; omega) h1
    · have e : cursorOps.readExact n c = (.error .unexpectedEof, c) := if_neg hn
      rw [e]
      exact ih _ c hd hp (h.2 _ ⟨by nofun, by nofun⟩)
  | seek pos k ih =>
    intro c hd hp h
    simp only [RProg.run]
    by_cases ht : 0 ≤ seekTarget c.data.length c.pos pos ∧ seekTarget c.data.length c.pos pos ≤ c.data.length
    · have e : cursorOps.seek pos c = (.ok (), { c with pos := (seekTarget c.data.length c.pos pos).toNat }) := if_pos ht
      rw [e]
      rw [hd] at ht ⊢
      exact ih _ { c with pos := (seekTarget L c.pos pos).toNat } hd (by show Int.toNat _ ≤ L; omega)
        (h.1 _ (by show Int.toNat _ ≤ L; omega) (by show ((Int.toNat _ : Nat) : Int) = _; omega))
    · have e : cursorOps.seek pos c = (.error .unexpectedEof, c) := if_neg ht
      rw [e]
      exact ih _ c hd hp (h.2 _ ⟨by nofun, by nofun⟩)
  | rewind k ih => intro c hd hp h; exact ih { c with pos := 0 } hd (Nat.zero_le _) h
  | streamLen k ih => intro c hd hp h; exact ih _ c hd hp (by rw [hd]; exact h)
  | streamPosition k ih => intro c hd hp h; exact ih _ c hd hp h
  | remain k ih => intro c hd hp h; exact ih _ c hd hp (by rw [hd]; exact h)

/-- A program on a reader of application data. -/
theorem rsafe_tls {Q : α → Nat → Prop} {prog : RProg α} {r : TlsReader} {c : Cursor} (hr : TRel r c) (dbg : Bool)
    (h : RSafe c.data.length Q prog c.pos) :
    (∀ e, (prog.run (TlsReader.ops dbg) r).1 = .error e → Fine e) ∧
    (∃ c', TRel (prog.run (TlsReader.ops dbg) r).2 c') ∧ ∀ a, (prog.run (TlsReader.ops dbg) r).1 = .ok a → ∃ p, Q a p := by
  obtain ⟨h1, h2, -⟩ := tlsReader_sim dbg prog hr
  have := rsafe_cursor hr.small prog c rfl hr.pos h
  rw [h1]
  exact ⟨this.1, ⟨_, h2⟩, fun a ha => ⟨_, this.2 a ha⟩⟩

/-- The reader of a buffer is a cursor. -/
theorem reader_cursor {n : Nat} {b : Buffer} (hb : BOk n b) (hn : n ≤ 16384) {r : TlsReader} (h : b.appDataReader = .ok r) :
    ∃ c, TRel r c ∧ c.pos = 0 := by
  unfold Buffer.appDataReader at h
  split at h
  · exact nomatch h
  · injection h with h
    rw [← h]
    refine ⟨⟨(Tls.asSlices b.buf b.adTail b.head).1 ++ (Tls.asSlices b.buf b.adTail b.head).2, 0⟩, ⟨rfl, rfl, Nat.zero_le _, ?_⟩, rfl⟩
    have h1 := hb.size
    have h2 := hb.head
    have h3 := hb.ad
    show List.length _ ≤ 32767
    unfold Tls.asSlices
    split <;> simp <;> omega

/-! ## The client -/

/-- Neither a panic nor a missing key. -/
def Mild {ε : Type} (f : Fail ε) : Prop := f ≠ .stop .panic ∧ f ≠ .noKey

/-- From `I`, all failures are mild; a value satisfies `V`, and then `I` still holds. -/
def NI (I : S → Prop) (V : α → Prop) (m : X Error S α) : Prop :=
  ∀ s, I s → (∀ f, (m s).1 = .error f → Mild f) ∧ ∀ a, (m s).1 = .ok a → V a ∧ I (m s).2

namespace NI
variable {I : S → Prop} {V : α → Prop} {V' : β → Prop}

theorem pure {a : α} (h : V a) : NI I V (Pure.pure a : X Error S α) :=
  fun _ hs => ⟨(fun _ h => nomatch h), fun _ e => by injection e with e; rw [← e]; exact ⟨h, hs⟩⟩

theorem throw (e : Error) : NI I V (X.throw e : X Error S α) :=
  fun _ _ => ⟨fun f h => by injection h with h; rw [← h]; exact ⟨by nofun, by nofun⟩, (fun _ h => nomatch h)⟩

theorem bind {m : X Error S α} {f : α → X Error S β} (hm : NI I V m) (hf : ∀ a, V a → NI I V' (f a)) : NI I V' (m >>= f) := by
  intro s hs
  have := hm s hs
  rw [X.bind_run]
  rcases h : m s with ⟨e | a, s'⟩ <;> rw [h] at this
  · exact ⟨fun f hf => this.1 f (by injection hf with hf; rw [hf]), (fun _ h => nomatch h)⟩
  · exact hf a (this.2 a rfl).1 s' (this.2 a rfl).2

end NI

/-- The clock has not gone backwards. -/
def Clock (dbg : Bool) (secs : UInt32) (s : σ × Client x) : Prop := dbg = true → ∀ t, s.2.timeout = some t → t ≤ secs

variable {dbg : Bool} {secs : UInt32}

/-- A message can be read. -/
def PubOkT (r : TlsReader) (i : Mqtt.PubInfo) : Prop := (∃ c, TRel r c) ∧ Mqtt.InfoOk i

/-- The event of a message. -/
def EvOk (ev : Event) : Prop := ∀ r i, ev = .publish r i → PubOkT r i

theorem ni_setState (st : Mqtt.State) : NI (Clock dbg secs) (fun _ => True) (modC (Client.setState st) : X Error (σ × Client x) Unit) :=
  fun _ _ => ⟨(fun _ h => nomatch h), fun _ _ => ⟨trivial, fun _ _ h => nomatch h⟩⟩

theorem ni_readerDone (r : TlsReader) : NI (Clock dbg secs) (fun _ => True) (readerDone r : X Error (σ × Client x) Unit) :=
  fun _ hs => ⟨(fun _ h => nomatch h), fun _ _ => ⟨trivial, hs⟩⟩

theorem ni_recvFinish {r : TlsReader} (hr : ∃ c, TRel r c) {o : Mqtt.RecvOut} (ho : Mqtt.OutOk o) :
    NI (Clock dbg secs) (fun ev => ∀ e, ev = some e → EvOk e) (recvFinish r o : X Error (σ × Client x) (Option Event)) := by
  have hn : ∀ ev : Event, (∀ r i, ev ≠ .publish r i) → ∀ e, some ev = some e → EvOk e := by
    intro ev h e he r i hr
    injection he with he
    exact (h r i (he.trans hr)).elim
  unfold recvFinish
  split
  · exact NI.pure (fun _ h => nomatch h)
  · exact (ni_setState _).bind fun _ _ => NI.throw _
  · exact NI.throw _
  · refine (ni_readerDone r).bind fun _ _ => ?_
    split
    · exact (ni_setState _).bind fun _ _ => NI.throw _
    · split
      · exact (ni_setState _).bind fun _ _ => NI.pure (hn _ (by nofun))
      · exact (ni_setState _).bind fun _ _ => NI.throw _
  · exact (ni_readerDone r).bind fun _ _ => NI.pure (hn _ (by nofun))
  · exact (ni_readerDone r).bind fun _ _ => NI.pure (hn _ (by nofun))
  · refine NI.pure fun e he r' i' h => ?_
    injection he with he
    rw [← he] at h
    injection h with h1 h2
    rw [← h1, ← h2]
    exact ⟨hr, ho⟩
  · exact (ni_readerDone r).bind fun _ _ => NI.pure (fun _ h => nomatch h)

theorem mild_of_fine {e : Err} (h : Fine e) : Mild (mapW5500 (X.ofErr e)) := ⟨(Soft.ofErr h).2.2.1, (Soft.ofErr h).2.2.2⟩

theorem ni_recv {r : TlsReader} {c : Cursor} (hr : TRel r c) :
    NI (Clock dbg secs) (fun ev => ∀ e, ev = some e → EvOk e) (recv dbg r : X Error (σ × Client x) (Option Event)) := by
  unfold recv
  refine NI.bind (V := fun _ => True) (fun _ hs => ⟨(fun _ h => nomatch h), fun _ _ => ⟨trivial, hs⟩⟩) fun d _ => ?_
  have h := rsafe_tls hr dbg (Mqtt.rsafe_recvProg dbg (by have := hr.small; omega) d.state c.pos)
  rcases e : (Mqtt.recvProg dbg d.state).run (TlsReader.ops dbg) r with ⟨f | out, r'⟩ <;> rw [e] at h
  · exact fun s _ => ⟨fun f' hf => by injection hf with hf; rw [← hf]; exact mild_of_fine (h.1 f rfl), (fun _ h => nomatch h)⟩
  · obtain ⟨_, ho⟩ := h.2.2 out rfl
    exact ni_recvFinish h.2.1 ho

theorem ni_checkTimeout : NI (Clock dbg secs) EvOk (checkTimeout dbg secs : X Error (σ × Client x) Event) := by
  intro s hs
  unfold checkTimeout
  rw [X.bind_ok (show (getC : X Error (σ × Client x) _) s = (.ok s.2, s) from rfl)]
  have : ∃ e, s.2.elapsedSecs dbg secs = .ok e := by
    unfold Client.elapsedSecs
    rcases ht : s.2.timeout with _ | t
    · exact ⟨_, rfl⟩
    · dsimp only
      rw [if_neg]
      · exact ⟨_, rfl⟩
      · intro ⟨hd, hlt⟩
        have := hs hd t ht
        rw [UInt32.lt_iff_toNat_lt] at hlt
        rw [UInt32.le_iff_toNat_le] at this
        omega
  obtain ⟨e, he⟩ := this
  rw [he]
  refine NI.bind (V := fun _ => True) (NI.pure trivial) (fun e _ => ?_) s hs
  split
  · split
    · exact (ni_setState _).bind fun _ _ => NI.throw _
    · exact NI.pure fun _ _ h => nomatch h
  · exact NI.pure fun _ _ h => nomatch h

theorem receive_mild {n : Nat} (hn : n ≤ 16384) (s : σ) (c : Client x) (hb : BOk n c.tls.rx) (hc : Clock dbg secs (s, c)) :
    (∀ f, (receive dbg secs (s, c)).1 = .error f → Mild f) ∧ ∀ ev, (receive dbg secs (s, c)).1 = .ok ev → EvOk ev := by
  have key : NI (Clock dbg secs) EvOk (match c.tls.reader with
      | .error .wouldBlock => checkTimeout dbg secs
      | .error _ => X.ofExcept (.error (.stop .panic))
      | .ok r =>
        recv dbg r >>= fun ev =>
        match ev with
        | some ev => pure ev
        | none => checkTimeout dbg secs : X Error (σ × Client x) Event) := by
    split
    · exact ni_checkTimeout
    · rename_i e h1 h2
      exfalso
      unfold Tls.Client.reader Buffer.appDataReader at h2
      split at h2
      · injection h2 with h2; exact h1 h2.symm
      · exact nomatch h2
    · rename_i r h
      obtain ⟨cur, hr, -⟩ := reader_cursor hb hn h
      refine (ni_recv hr).bind fun ev hev => ?_
      split
      · exact NI.pure (hev _ rfl)
      · exact ni_checkTimeout
  have h := key (s, c) hc
  exact ⟨h.1, fun ev he => (h.2 ev he).1⟩

/-! ## Reading a message -/

theorem onPublish_mild {r : TlsReader} {i : Mqtt.PubInfo} (h : PubOkT r i) {prog : RProg α} (hp : ∀ L p, RSafe L (fun _ _ => True) prog p) :
    (∀ f, onPublish dbg r prog = .error f → Mild f) ∧ ∀ y, onPublish dbg r prog = .ok y → PubOkT y.2 i := by
  obtain ⟨⟨c, hr⟩, hi⟩ := h
  have h := rsafe_tls hr dbg (hp c.data.length c.pos)
  unfold onPublish
  rcases e : prog.run (TlsReader.ops dbg) r with ⟨f | a, r'⟩ <;> rw [e] at h
  · exact ⟨fun f' hf => by injection hf with hf; rw [← hf]; exact mild_of_fine (h.1 f rfl), (fun _ h => nomatch h)⟩
  · exact ⟨(fun _ h => nomatch h), fun y hy => by injection hy with hy; rw [← hy]; exact ⟨h.2.1, hi⟩⟩

theorem publishDone_mild {r : TlsReader} {i : Mqtt.PubInfo} (h : PubOkT r i) (s : σ × Client x) (f : Fail Error)
    (e : (publishDone dbg r i s).1 = .error f) : Mild f := by
  have hp := onPublish_mild (dbg := dbg) h (prog := Mqtt.publishDoneProg dbg i) fun L p => by
    unfold Mqtt.publishDoneProg
    rw [if_neg (by have := h.2; unfold Mqtt.InfoOk at this; omega)]
    exact RSafe.doSeek fun _ _ _ => trivial
  unfold publishDone at e
  rw [X.bind_run] at e
  unfold X.ofExcept at e
  rcases h : onPublish dbg r (Mqtt.publishDoneProg dbg i) with f' | y <;> rw [h] at e hp
  · injection e with e
    rw [← e]
    exact hp.1 f' rfl
  · exact nomatch e

end Verif.MqttTls
