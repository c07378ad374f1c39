import Verif.Proof.PanicTlsClient
import Verif.Thm.TlsHandshake
import Verif.Thm.TlsWitness
import Verif.Thm.Panic
/-!
# C122: before application data has arrived, nothing received makes the TLS client panic

`TlsHistory` and the hypotheses about the device are in `Spec/PanicTls.lean`.
-/
namespace Verif.Tls
open Verif Hl
open _root_.Verif.Spec (Device StatusTcp PortUnique Unconnected NothingBeforeCon TlsAsserts TlsHistory worldBus World)
open _root_.Verif.Spec.Tls (plaintextHandshake)
variable {σ τ : Type} {x : Crypto}

/-! ## The invariant of the histories -/

theorem _root_.Verif.Spec.TlsHistory.reached {start c : Client x} {k : Nat} {data : Prop} (h : TlsHistory σ start k data c) : Reached σ False start c := by
  induction h with
  | new => exact .new
  | process dbg fuel b rng secs _ rand _ run ret ih => exact .process dbg fuel b rng secs ih ⟨rand.1, rand.2⟩ False.elim run ret
  | writeAll b bytes _ run ret ih => exact .writeAll b bytes ih run ret
  | write b b' _ run send ret ih => exact .write b b' ih run send ret
  | read _ run same ih => exact .read ih run same

/-- The sequence numbers are small, and before application data has arrived the buffer is clean. -/
structure HI (n k : Nat) (data : Prop) (c : Client x) : Prop where
  rs : c.ks.readSeq.toNat ≤ k
  ws : c.ks.writeSeq.toNat ≤ k
  clean : ¬ data → Unconnected c.state ∨ Clean n 0 c.rx

/-- What one call is made with. -/
def callCfg (u : Setup) (z : Prop) (dbg : Bool) (b : Bus τ) (secs : UInt32) (c : Client x) : PCfg τ :=
  { z, dbg, b, sn := c.sn, port := c.srcPort, host := u.hostname, identity := u.identity, n := u.rx.length, secs }

theorem history_call (hx : x.Standard) (u : Setup) {c : Client x} {k : Nat} {data : Prop} (hr : Inv (u.cfg True False) c)
    (hi : HI u.rx.length k data c) (hk : k + 1 < 2 ^ 64) (z : Prop) (hz : z → ¬ data ∧ 234 + u.hostname.length + u.identity.length ≤ u.rx.length)
    (dbg : Bool) (fuel : Nat) (b : Bus τ) (rng : Rng x) (secs : UInt32) (s : τ) (rand : rng.Ok)
    (calm : z → Device b ∧ (c.state = .waitConInt → NothingBeforeCon b c.sn s) ∧ (dbg = true → TlsAsserts b s secs c)) :
    TP z (fun t => t = (s, c)) (process dbg fuel b rng secs) (fun ev => L2 (POut (callCfg u z dbg b secs c) (k + 1) ev))
      (L2 (POff (callCfg u z dbg b secs c) (k + 1))) := by
  have ho : (callCfg u z dbg b secs c).Ok :=
    ⟨fun h => (calm h).1, u.sizes.1, u.sizes.2, u.hostname_short, fun h => (hz h).2⟩
  refine tp_process (q := callCfg u z dbg b secs c) hx ho hk fuel rng rand (s, c) ⟨⟨rfl, rfl, hr.host, hr.identity, fun _ => hr.rx.size, hi.rs, hi.ws, ?_⟩, ?_⟩
    (fun h => (calm h).2.1) (fun h => (calm h).2.2)
  · intro h hd; exact ((calm h).2.2 hd).clock
  · intro h; exact hi.clean (hz h).1

theorem _root_.Verif.Spec.TlsHistory.inv (hx : x.Standard) (u : Setup) (hf : 234 + u.hostname.length + u.identity.length ≤ u.rx.length) {c : Client x} {k : Nat}
    {data : Prop} (h : TlsHistory σ (u.client x) k data c) (hk : k < 2 ^ 64) : HI u.rx.length k data c := by
  induction h with
  | new => exact ⟨Nat.le_refl _, Nat.le_refl _, fun _ => .inl (.inl rfl)⟩
  | @process k data c c' s s' r dbg fuel b rng secs h rand calm run ret ih =>
    have hi := ih (by omega)
    have := history_call hx u (reached_inv hx h.reached) hi hk (¬ data) (fun h => ⟨h, hf⟩) dbg fuel b rng secs s ⟨rand.1, rand.2⟩ (fun _ => calm) (s, c) rfl
    rw [run] at this
    rcases ret with ⟨ev, rfl⟩ | ⟨e, rfl⟩
    · refine ⟨this.1.rs, this.1.ws, fun hd => ?_⟩
      by_cases hu : Unconnected c'.state
      · exact .inl hu
      · have hn : ¬ (data ∨ (.ok ev : Except (Fail TErr) TEvent) = .ok .applicationData) := fun h => hd ⟨h, hu⟩
        exact this.2 (fun e => hn (.inr (by rw [e]))) fun h => hn (.inl h)
    · exact ⟨this.1.rs, this.1.ws, fun _ => .inl this.2⟩
  | @writeAll k data c c' s s' r b bytes h run ret ih =>
    have hi := ih hk
    have hr := reached_inv hx h.reached
    have : c' = c := by
      have key : Tri (fun u => u = c) (tlsWriteAll b bytes : X _ (σ × Client x) _) (fun _ u => u = c) (fun u => u = c) := by
        refine Tri.getC_bind fun d hd => ?_
        subst hd
        split
        · rename_i hs
          have hs' : d.state = .connected := by simpa [Client.connected] using hs
          refine (sendRecord_tri b _ _ (fun u => u = d) fun v hv => ?_).mapErr _
          have := hr.st
          rw [hs'] at this
          rw [hv]; exact this.1
        · exact Tri.throw _ fun _ h => h
      have := key (s, c) rfl
      rw [run] at this
      rcases ret with ⟨ev, rfl⟩ | ⟨e, rfl⟩ <;> exact this
    rw [this]; exact hi
  | @write k data c c' c'' s s' t t' p p' r b b' h run send ret ih =>
    obtain ⟨rfl, hs⟩ := tlsWriter_keeps run
    have hi := ih (by omega)
    have hr := reached_inv hx h.reached
    obtain ⟨v, hv, rfl⟩ : ∃ v : UInt64, v.toNat ≤ k + 1 ∧ c'' = { c' with ks := { c'.ks with writeSeq := v } } := by
      have key : ∀ t0 : σ, TP False (fun u => u = (t0, c'.ks)) (tlsWriterSend b' p' : X _ (σ × KeySchedule x) Unit)
          (fun _ u => ∃ v : UInt64, v.toNat ≤ k + 1 ∧ u.2 = { c'.ks with writeSeq := v }) (fun u => u.2 = c'.ks) := by
        intro t0
        unfold tlsWriterSend
        rintro u rfl
        refine (?_ : TP False (L2 fun u => u = c'.ks) (unwrapKey c'.ks.clientKeyAndNonce >>= fun kn =>
          (encryptRecordInplace b' p'.sn kn.1 kn.2 p'.head p'.ptr .applicationData).onFst >>= fun _ =>
          ofCipher c'.ks.incrementWriteSeq >>= fun ks => (X.modify fun s => (s.1, ks)) : X Err (σ × KeySchedule x) Unit)
          (fun _ u => ∃ v : UInt64, v.toNat ≤ k + 1 ∧ u.2 = { c'.ks with writeSeq := v }) (L2 fun u => u = c'.ks)) _ rfl
        refine TP.bind (R := fun _ => L2 fun u => u = c'.ks) (TP.unwrap fun _ _ _ h => h) fun kn =>
          TP.bind (R := fun _ => L2 fun u => u = c'.ks) ((TP.onFst (V := fun _ => True) ?_).post fun _ _ h => h.1) fun _ =>
          TP.bind (R := fun ks _ => ∃ v : UInt64, v.toNat ≤ k + 1 ∧ ks = { c'.ks with writeSeq := v }) (TP.ofCipher (fun _ _ h => h.elim) ?_) fun ks => ?_
        · intro w _
          rcases (encryptRecordInplace b' p'.sn kn.1 kn.2 p'.head p'.ptr .applicationData) w with ⟨(e | e | _) | a, t⟩
          · trivial
          · exact fun h => h.elim
          · trivial
          · exact fun h => h.elim
        · intro ks e w _
          unfold KeySchedule.incrementWriteSeq at e
          split at e
          · injection e with e
            refine ⟨_, ?_, e.symm⟩
            rw [UInt64.toNat_add]
            have := hi.ws
            exact Nat.le_trans (Nat.mod_le _ _) (by show c'.ks.writeSeq.toNat + 1 ≤ k + 1; omega)
          · exact nomatch e
        · rintro w ⟨v, h1, h2⟩
          exact ⟨v, h1, h2⟩
      have := key t _ rfl
      unfold tlsSend at send
      rcases hm : tlsWriterSend b' p' (t, c'.ks) with ⟨(e | e | _) | a, u⟩ <;> rw [hm] at this <;> dsimp only at send <;> rw [hm] at send <;>
        (injection send with h1 h2; injection h2 with h2 h3; subst h1 h3)
      · refine ⟨c'.ks.writeSeq, by have := hi.ws; omega, ?_⟩
        rw [this]
      · rcases ret with ⟨a, h⟩ | ⟨a, h⟩ <;> exact nomatch h
      · rcases ret with ⟨a, h⟩ | ⟨a, h⟩ <;> exact nomatch h
      · obtain ⟨v, h1, h2⟩ := this
        exact ⟨v, h1, by rw [h2]⟩
    exact ⟨Nat.le_trans hi.rs (Nat.le_succ k), hv, hi.clean⟩
  | @read k data c r r' h run same ih =>
    have hi := ih hk
    refine ⟨hi.rs, hi.ws, fun hd => ?_⟩
    rcases hi.clean hd with h | h
    · exact .inl h
    · unfold Client.reader Buffer.appDataReader at run
      rw [if_pos (by rw [h.ad, h.head])] at run
      exact nomatch run

/-! ## The theorems -/

/-- **C122, the part that holds.**  After any history, as long as no application data has arrived on the connection, `process` does not
panic, whatever the device answers and whenever it fails: not on the bytes of a record, not on a handshake message, and not for a
missing key.  The name and the identity must be short enough for the client hello to fit the buffer. -/
theorem C122_process_never_panics_partial (hx : x.Standard) (u : Setup) (fits : 234 + u.hostname.length + u.identity.length ≤ u.rx.length)
    {c : Client x} {k : Nat} {data : Prop} (h : TlsHistory σ (u.client x) k data c) (calls : k + 1 < 2 ^ 64) (noData : ¬ data)
    (dbg : Bool) (fuel : Nat) (b : Bus τ) (rng : Rng x) (secs : UInt32) (s : τ) (rand : rng.random.length = 32 ∧ rng.publicKey.length = 65)
    (dev : Device b) (wait : c.state = .waitConInt → NothingBeforeCon b c.sn s) (debug : dbg = true → TlsAsserts b s secs c) :
    (process dbg fuel b rng secs (s, c)).1 ≠ .error (.stop .panic) ∧ (process dbg fuel b rng secs (s, c)).1 ≠ .error .noKey := by
  have hr := reached_inv hx h.reached
  have ht := history_call hx u hr (h.inv hx u fits (by omega)) calls True (fun _ => ⟨noData, fits⟩) dbg fuel b rng secs s ⟨rand.1, rand.2⟩
    (fun _ => ⟨dev, wait, debug⟩) (s, c) rfl
  have hn := reached_process hx hr dbg fuel b rng ⟨rand.1, rand.2⟩ secs s False.elim
  constructor <;> intro e <;> rcases hp : process dbg fuel b rng secs (s, c) with ⟨r, t⟩ <;> rw [hp] at ht hn e <;> dsimp only at e <;> subst e
  · exact ht trivial rfl
  · exact hn

/-- C122, after an error: whatever the device answers, and whether or not application data has arrived, a call of `process` that
returns an error leaves a client without a connection. -/
theorem C122_error_gives_up (hx : x.Standard) (u : Setup) (fits : 234 + u.hostname.length + u.identity.length ≤ u.rx.length)
    {c c' : Client x} {k : Nat} {data : Prop} (h : TlsHistory σ (u.client x) k data c) (calls : k + 1 < 2 ^ 64)
    (dbg : Bool) (fuel : Nat) (b : Bus τ) (rng : Rng x) (secs : UInt32) (s s' : τ) (rand : rng.random.length = 32 ∧ rng.publicKey.length = 65)
    (e : TErr) (run : process dbg fuel b rng secs (s, c) = (.error (.err e), (s', c'))) : Unconnected c'.state := by
  have := history_call hx u (reached_inv hx h.reached) (h.inv hx u fits (by omega)) calls False False.elim dbg fuel b rng secs s ⟨rand.1, rand.2⟩
    False.elim (s, c) rfl
  rw [run] at this
  exact this.2

/-- C122, `write_all`: on a connected client of any history, whatever the device does, `write_all` panics exactly if the data does not
fit one record whose length is 16 bits, which are 65519 bytes. -/
theorem C122_write_all_panics_iff (hx : x.Standard) (u : Setup) {c : Client x} {k : Nat} {data : Prop}
    (h : TlsHistory σ (u.client x) k data c) (hc : c.connected = true) {b : Bus τ} (dev : Device b) (s : τ) (bytes : Bytes) :
    (∃ e, (tlsWriteAll b bytes (s, c)).1 = .error e ∧ (e = .stop .panic ∨ e = .noKey)) ↔ 65519 ≤ bytes.length := by
  constructor
  · rintro ⟨e, he, hs⟩
    refine Nat.le_of_not_lt fun hl => ?_
    rcases hs with rfl | rfl
    · have key : TP True (L2 fun _ => True) (tlsWriteAll b bytes : X _ (τ × Client x) _) (fun _ => L2 fun _ => True) (L2 fun _ => True) := by
        refine TP.getC_bind fun d _ => TP.pre (P := L2 fun _ => True) ?_ fun _ h => h.1
        refine TP.ite (fun _ => ?_) fun _ => TP.throw _ fun _ h => h
        refine TP.mapErr _ (TP.getC_bind fun d _ => TP.pre (P := L2 fun _ => True) ?_ fun _ h => h.1)
        exact (TP.onFst (tp_sendEncryptedRecord (fun _ => dev) d.sn _ _ bytes hl)).post fun _ _ h => h.1
      have := key (s, c) trivial
      rcases hp : tlsWriteAll b bytes (s, c) with ⟨r, t⟩
      rw [hp] at this he
      dsimp only at he
      subst he
      exact this trivial rfl
    · have hi := reached_inv hx h.reached
      have := tlsWriteAll_tri (σ := τ) b bytes (s, c) hi
      rcases hp : tlsWriteAll b bytes (s, c) with ⟨r, t⟩
      rw [hp] at this he
      dsimp only at he
      subst he
      exact this
  · intro hl
    refine ⟨.stop .panic, ?_, .inl rfl⟩
    unfold tlsWriteAll getC
    show (match (if c.connected then writeErr (sendRecord b .applicationData bytes) else X.throw .notConnected : X TErr (τ × Client x) Unit) (s, c) with
      | x => x).1 = _
    rw [if_pos hc]
    unfold writeErr sendRecord getC sendEncryptedRecord
    simp only [show 65536 ≤ bytes.length + 16 + 1 by omega, if_true]
    rfl

namespace Witness

/-! ## The hypotheses can be met -/

theorem device_world : Device worldBus := ⟨fun _ _ _ _ _ h => (nomatch h), fun _ _ _ _ _ h => nomatch h⟩

theorem device_fill (v : UInt8) : Device (Thm.fillBus v) := ⟨fun _ _ _ _ _ h => (nomatch h), fun _ _ _ _ _ h => nomatch h⟩

/-- The calls of the release build. -/
def goodR (ir : UInt8) (data : Bytes) (c : Client X) (ev : TEvent) (c' : Client X) : Bool :=
  match process false 3 worldBus rng 0 (Thm.tcpWorld ir data, c) with
  | (r, (_, d)) => isOk r ev && same d c'

theorem runR {ir : UInt8} {data : Bytes} {c c' : Client X} {ev : TEvent} (h : goodR ir data c ev c' = true) :
    ∃ w, process false 3 worldBus rng 0 (Thm.tcpWorld ir data, c) = (.ok ev, (w, c')) := by
  unfold goodR at h
  rcases hp : process false 3 worldBus rng 0 (Thm.tcpWorld ir data, c) with ⟨r, w, d⟩
  rw [hp] at h
  simp only [Bool.and_eq_true] at h
  have := same_eq h.2
  subst this
  refine ⟨w, ?_⟩
  have h1 := h.1
  unfold isOk at h1
  split at h1
  · rw [of_decide_eq_true h1]
  · simp at h1

theorem history_step {k : Nat} {data : Prop} {ir : UInt8} {bytes : Bytes} {c c' : Client X} {ev : TEvent} (h : TlsHistory World (setup.client X) k data c)
    (hd : ¬ data) (he : ev ≠ .applicationData) (hw : c.state = .waitConInt → NothingBeforeCon worldBus c.sn (Thm.tcpWorld ir bytes)) (run : goodR ir bytes c ev c' = true) :
    ∃ data', TlsHistory World (setup.client X) (k + 1) data' c' ∧ ¬ data' := by
  obtain ⟨w, hr⟩ := runR run
  refine ⟨_, .process false 3 worldBus rng 0 h ⟨rng_ok.random, rng_ok.key⟩ ⟨device_world, hw, fun h => nomatch h⟩ hr (.inl ⟨_, rfl⟩), ?_⟩
  rintro ⟨h | h, -⟩
  · exact hd h
  · exact he (by injection h)

/-- The history of a whole handshake: a connection request, the report of the connection, and the three messages of the server. -/
theorem history : ∃ data2 data5, (TlsHistory World (setup.client X) 2 data2 c2 ∧ ¬ data2) ∧ TlsHistory World (setup.client X) 5 data5 c5 ∧ ¬ data5 := by
  obtain ⟨d1, h1, n1⟩ := history_step (ir := 0) (bytes := []) (ev := .callAfter 10) (c' := c1) .new id (by nofun) (fun h => nomatch h) (by decide +kernel)
  obtain ⟨d2, h2, n2⟩ := history_step (ir := 1) (bytes := []) (ev := .callAfter 10) (c' := c2) h1 n1 (by nofun) (fun _ r s' e hc => by
    rw [show c1.sn = .sn3 from rfl, Mqtt.run_snIr] at e
    injection e with e _
    exact absurd (hc _ e.symm) (by decide +kernel)) (by decide +kernel)
  obtain ⟨d3, h3, n3⟩ := history_step (ir := 0) (bytes := plaintextHandshake sh) (ev := .callAfter 10) (c' := c3) h2 n2 (by nofun) (fun h => nomatch h) (by decide +kernel)
  obtain ⟨d4, h4, n4⟩ := history_step (ir := 0) (bytes := plaintextHandshake ee) (ev := .callAfter 10) (c' := c4) h3 n3 (by nofun) (fun h => nomatch h) (by decide +kernel)
  obtain ⟨d5, h5, n5⟩ := history_step (ir := 0) (bytes := plaintextHandshake fin) (ev := .handshakeFinished) (c' := c5) h4 n4 (by nofun) (fun h => nomatch h) (by decide +kernel)
  exact ⟨d2, d5, ⟨h2, n2⟩, h5, n5⟩

/-- After the handshake, any device, even one that answers at random or fails. -/
example (script : List (Option Bytes)) : (process false 3 Thm.scriptBus rng 0 (script, c5)).1 ≠ .error (.stop .panic) := by
  obtain ⟨_, _, -, h, n⟩ := history
  exact (C122_process_never_panics_partial standard setup (by decide +kernel) h (by decide) n false 3 _ rng 0 script ⟨rng_ok.random, rng_ok.key⟩
    Thm.device_script (fun h => nomatch h) (fun h => nomatch h)).1

/-- The debug build, while it waits for the server, with a device where every byte reads as 0x17. -/
example : (process true 3 (Thm.fillBus 0x17) rng 0 ((), c2)).1 ≠ .error (.stop .panic) := by
  obtain ⟨_, _, ⟨h, n⟩, -⟩ := history
  refine (C122_process_never_panics_partial standard setup (by decide +kernel) h (by decide) n true 3 _ rng 0 () ⟨rng_ok.random, rng_ok.key⟩
    Thm.fillBus_tcp.1 (fun h => nomatch h) fun _ => ⟨fun t ht => ?_, fun _ => Thm.fillBus_tcp.2.1, (fun h => nomatch h), (fun h => nomatch h)⟩).1
  injection ht with ht; rw [← ht]; decide

/-- The first call of a debug build. -/
example : (process true 3 (Thm.fillBus 0x16) rng 0 ((), setup.client X)).1 ≠ .error (.stop .panic) := by
  refine (C122_process_never_panics_partial (σ := Unit) standard setup (by decide +kernel) .new (by decide) id true 3 _ rng 0 () ⟨rng_ok.random, rng_ok.key⟩
    (device_fill _) (fun h => nomatch h) fun _ =>
      ⟨fun t ht => (nomatch ht), fun h => absurd rfl h, fun _ s v h => ?_, fun _ ir h => ?_⟩).1
  · have e : (portIsUnique (Thm.fillBus 0x16) .sn3 4433 s).1 = .ok true := rfl
    rw [show (setup.client X).sn = .sn3 from rfl, show (setup.client X).srcPort = 4433 from rfl, e] at h
    injection h with h; exact h.symm
  · have e : ((Thm.fillBus 0x16).snIr .sn3 ()).1 = .ok ⟨0x16⟩ := rfl
    rw [show (setup.client X).sn = .sn3 from rfl, e] at h
    injection h with h; rw [← h]; decide

/-- An error: the server answers the client hello with an alert. -/
example : ∃ e t c', process false 3 worldBus rng 0 (Thm.tcpWorld 0 [21, 3, 3, 0, 2, 2, 40], c2) = (.error (.err e), (t, c')) ∧ Unconnected c'.state := by
  obtain ⟨_, _, ⟨h, n⟩, -⟩ := history
  rcases hp : process false 3 worldBus rng 0 (Thm.tcpWorld 0 [21, 3, 3, 0, 2, 2, 40], c2) with ⟨r, t, c'⟩
  have hr : (match (process false 3 worldBus rng 0 (Thm.tcpWorld 0 [21, 3, 3, 0, 2, 2, 40], c2)).1 with | .error (.err _) => true | _ => false) = true := by
    decide +kernel
  rw [hp] at hr
  rcases r with (e | e | _) | ev
  · exact ⟨e, t, c', rfl, C122_error_gives_up standard setup (by decide +kernel) h (by decide) false 3 _ rng 0 _ _ ⟨rng_ok.random, rng_ok.key⟩ e hp⟩
  all_goals exact nomatch hr

example (s : World) : ∃ e, (tlsWriteAll worldBus (List.replicate 70000 0) (s, c5)).1 = .error e ∧ (e = .stop .panic ∨ e = .noKey) := by
  obtain ⟨_, _, -, h, -⟩ := history
  exact (C122_write_all_panics_iff standard setup h rfl device_world s _).2 (by rw [List.length_replicate]; decide)

end Witness

end Verif.Tls
