import Verif.Proof.TlsInv
import Verif.Spec.TlsHandshake
import Verif.Thm.ClientHello
/-!
# The invariant of the handshake
-/
namespace Verif.Tls
open Verif Hl
open _root_.Verif.Spec (HsMsg)
open _root_.Verif.Spec.Tls (HelloBody ExtensionsBody serverFinished)

variable {σ : Type} {x : Crypto} {ε α : Type}

/-- What does not change: the client's configuration, whether it was connected before (`before`), and whether the chip is assumed to
report a new connection only to a client that waits for one (`once`). -/
structure Cfg where
  psk : Bytes
  identity : Bytes
  host : Bytes
  n : Nat
  before : Prop
  once : Prop

/-- The offer of a client. -/
def Cfg.offer (g : Cfg) (rng : Rng x) : Spec.Tls.Offer :=
  { random := rng.random, host := g.host, publicKey := rng.publicKey, psk := g.psk, identity := g.identity, limit := g.n - 22 }

/-- What the random number generator gives has the right size. -/
structure Rng.Ok (rng : Rng x) : Prop where
  random : rng.random.length = 32
  key : rng.publicKey.length = 65

/-- The transcript when the client hello has been sent. -/
def Said (g : Cfg) (s : x.Secret) (m : Bytes) : Prop :=
  g.once → ∃ rng : Rng x, rng.Ok ∧ rng.secret = s ∧ m = (g.offer rng).hello

/-- The secrets of the handshake. -/
structure Shook (g : Cfg) (k : KeySchedule x) (s : x.Secret) (p : x.Public) (ch body : Bytes) : Prop where
  said : Said g s ch
  hello : ∃ key, HelloBody body key ∧ x.sec1 key = some p
  client : k.clientTraffic = some (Spec.Tls.clientHandshakeTraffic g.psk (x.dh s p) [ch, (HsMsg.mk 2 body).bytes])
  server : k.serverTraffic = some (Spec.Tls.serverHandshakeTraffic g.psk (x.dh s p) [ch, (HsMsg.mk 2 body).bytes])
  secret : k.secret = Spec.Tls.deriveSecret (Spec.Tls.handshakeSecret g.psk (x.dh s p)) "derived" []

/-- What holds in each state. -/
def St (g : Cfg) (state : TState) (k : KeySchedule x) : Prop :=
  match state with
  | .reset => g.once → k.transcript = []
  | .waitConInt => g.once → k.transcript = []
  | .waitServerHello => ∃ s, k.clientSecret = some s ∧ Said g s k.transcript ∧
      k.secret = Spec.Tls.deriveSecret (Spec.Tls.earlySecret g.psk) "derived" []
  | .waitEncryptedExtensions => ∃ s p ch sh, Shook g k s p ch sh ∧ k.transcript = [ch, (HsMsg.mk 2 sh).bytes].flatten
  | .waitFinished => ∃ s p ch sh ee, Shook g k s p ch sh ∧ ExtensionsBody ee ∧
      k.transcript = [ch, (HsMsg.mk 2 sh).bytes, (HsMsg.mk 8 ee).bytes].flatten
  | .sendFinished => ∃ s p ch sh ee, Shook g k s p ch sh ∧ ExtensionsBody ee ∧
      k.transcript = [ch, (HsMsg.mk 2 sh).bytes, (HsMsg.mk 8 ee).bytes,
        serverFinished g.psk (x.dh s p) ch (HsMsg.mk 2 sh).bytes (HsMsg.mk 8 ee).bytes].flatten
  | .connected => k.clientTraffic ≠ none ∧ g.before
  | _ => True

/-- What always holds. -/
structure Weak (g : Cfg) (c : Client x) : Prop where
  psk : c.psk = g.psk
  identity : c.identity = g.identity
  host : c.hostname = g.host
  rx : BOk g.n c.rx
  keys : c.ks.serverTraffic ≠ none → c.ks.clientTraffic ≠ none

structure Inv (g : Cfg) (c : Client x) : Prop extends Weak g c where
  st : St g c.state c.ks

/-- The connection has been given up. -/
structure Lost (g : Cfg) (c : Client x) : Prop extends Inv g c where
  lost : c.state ≠ .connected

/-- The handshake has been completed. -/
structure Complete (g : Cfg) (c : Client x) : Prop extends Weak g c where
  state : c.state = .connected
  done : ∃ s p ch sh ee key, Said g s ch ∧ HelloBody sh key ∧ x.sec1 key = some p ∧ ExtensionsBody ee ∧
    (let dhe := x.dh s p
     let messages := [ch, (HsMsg.mk 2 sh).bytes, (HsMsg.mk 8 ee).bytes,
       serverFinished g.psk dhe ch (HsMsg.mk 2 sh).bytes (HsMsg.mk 8 ee).bytes]
     c.ks.transcript = messages.flatten ∧
     c.ks.clientTraffic = some (Spec.Tls.clientAppTraffic g.psk dhe messages) ∧
     c.ks.serverTraffic = some (Spec.Tls.serverAppTraffic g.psk dhe messages) ∧ c.ks.readSeq = 0 ∧ c.ks.writeSeq = 0)

variable {g : Cfg}

theorem Weak.withRx {c : Client x} (h : Weak g c) {rx : Buffer} (hr : BOk g.n rx) : Weak g { c with rx } :=
  ⟨h.psk, h.identity, h.host, hr, h.keys⟩

theorem Inv.withRx {c : Client x} (h : Inv g c) {rx : Buffer} (hr : BOk g.n rx) : Inv g { c with rx } :=
  ⟨h.toWeak.withRx hr, h.st⟩

theorem Lost.withRx {c : Client x} (h : Lost g c) {rx : Buffer} (hr : BOk g.n rx) : Lost g { c with rx } :=
  ⟨h.toInv.withRx hr, h.lost⟩

theorem Weak.resetKeys {c : Client x} (h : Weak g c) : Weak g c.resetKeys :=
  ⟨h.psk, h.identity, h.host, h.rx, fun h => absurd rfl h⟩

theorem Weak.reset {c : Client x} (h : Weak g c) : Lost g c.reset :=
  ⟨⟨⟨h.psk, h.identity, h.host, h.rx, fun h => absurd rfl h⟩, fun _ => rfl⟩, show TState.reset ≠ .connected by decide⟩

theorem Weak.to {c : Client x} (h : Weak g c) (state : TState) (t : Option UInt32)
    (hs : state = .waitAlertSendOk ∨ state = .sendDiscon ∨ state = .waitDiscon) : Lost g { c with state, timeout := t } := by
  refine ⟨⟨⟨h.psk, h.identity, h.host, h.rx, h.keys⟩, ?_⟩, ?_⟩
  · rcases hs with rfl | rfl | rfl <;> trivial
  · show state ≠ .connected
    rcases hs with rfl | rfl | rfl <;> decide

/-! ## Alerts -/

theorem sendRecord_tri (b : Bus σ) (ct : ContentType) (data : Bytes) (P : Client x → Prop) (h : ∀ c, P c → c.ks.clientTraffic ≠ none) :
    Tri P (sendRecord b ct data : X Err (σ × Client x) Unit) (fun _ => P) P := by
  refine Tri.getC_bind fun c hc => ?_
  have hk : c.ks.clientKeyAndNonce ≠ none := by
    unfold KeySchedule.clientKeyAndNonce
    have := h c hc
    cases hh : c.ks.clientTraffic
    · exact absurd hh this
    · simp
  exact (Tri.onFst (P := fun u => u = c) (NK.sendEncryptedRecord b c.sn _ ct data hk)).conseq (fun _ h => h)
    (fun _ _ h => by rw [h]; exact hc) (fun _ h => by rw [h]; exact hc)

theorem trySendAlert_tri (b : Bus σ) (level : AlertLevel) (d : AlertDescription) :
    Tri (Weak g) (trySendAlert b level d : X _ (σ × Client x) Unit) (fun _ => Weak g) (Weak g) := by
  refine Tri.getC_bind fun c hc => Tri.ite (fun hs => ?_) fun _ => ?_
  · refine ((sendRecord_tri b _ _ (fun u => u = c) ?_).mapErr _).conseq (fun _ h => h)
      (fun _ _ h => by rw [h]; exact hc) (fun _ h => by rw [h]; exact hc)
    intro u hu; rw [hu]
    exact hc.keys (by intro h0; rw [h0] at hs; simp at hs)
  · refine Tri.conseq (P := Weak g) (Q := fun _ => Weak g) (E := Weak g) ?_ (fun _ h => by rw [h]; exact hc) (fun _ _ h => h) (fun _ h => h)
    exact (Tri.onBus _).bind fun _ => (Tri.onHl _).bind fun _ => Tri.onBus _

theorem sendAlert_tri (b : Bus σ) (level : AlertLevel) (d : AlertDescription) (secs : UInt32) {E : Client x → Prop} :
    Tri (Weak g) (sendAlert b level d secs : X ε (σ × Client x) Unit) (fun _ => Lost g) E := by
  refine (Tri.attempt (trySendAlert_tri b level d)).bind fun r => ?_
  refine Tri.bind (R := fun _ => Weak g) (Tri.modC ?_) fun _ => ?_
  · intro c hc
    cases r
    · exact Weak.resetKeys hc
    · exact Weak.resetKeys hc
  · cases r
    · exact Tri.modC fun c hc => hc.resetKeys.to _ _ (.inr (.inl rfl))
    · exact Tri.modC fun c hc => hc.resetKeys.to _ _ (.inl rfl)

theorem failFatal_tri (b : Bus σ) (d : AlertDescription) (secs : UInt32) {Q : α → Client x → Prop} :
    Tri (Weak g) (failFatal b d secs : X TErr (σ × Client x) α) Q (Lost g) :=
  (sendAlert_tri b _ d secs).bind fun _ => Tri.throw _ fun _ h => h

theorem orFatal_tri (b : Bus σ) (secs : UInt32) {m : X AlertDescription (σ × Client x) α} {P : Client x → Prop}
    {Q : α → Client x → Prop} (h : Tri P m Q (Weak g)) : Tri P (orFatal b secs m) Q (Lost g) := by
  refine (Tri.attempt h).bind fun r => ?_
  cases r
  · exact failFatal_tri b _ secs
  · exact Tri.pure _ fun _ h => h

/-! ## Receiving -/

theorem recvChangeCipherSpec_tri (header : RecordHeader) :
    Tri (Inv g) (recvChangeCipherSpec header : X _ (σ × Client x) Unit) (fun _ => Inv g) (Weak g) := by
  refine Tri.ite (fun _ => Tri.throw _ fun _ h => h.toWeak) fun _ => ?_
  refine Tri.bind (R := fun _ => Inv g) ?_ fun byte => ?_
  · exact (Tri.onRx (TriB.popTail g.n) (fun _ h => h.rx) fun _ _ h hr => h.withRx hr).conseq (fun _ h => h) (fun _ _ h => h)
      (fun _ h => h.toWeak)
  · cases byte
    · exact Tri.throw _ fun _ h => h.toWeak
    · exact Tri.ite (fun _ => Tri.throw _ fun _ h => h.toWeak) fun _ => Tri.pure _ fun _ h => h

theorem deser_noKey (h : RecordHeader) : RecordHeader.deser h ≠ .error .noKey := by
  unfold RecordHeader.deser
  repeat' split
  all_goals simp

theorem recvHeader_tri (dbg : Bool) (b : Bus σ) :
    Tri (Inv g) (recvHeader dbg b : X _ (σ × Client x) _) (fun _ => Inv g) (Inv g) := by
  refine Tri.getC_bind fun c hc => Tri.pre (P := Inv g) ?_ (fun _ h => by rw [h]; exact hc)
  refine (Tri.onHl _).bind fun _ => (Tri.onHl _).bind fun _ => Tri.bind (R := fun _ => Inv g) ?_ fun _ => ?_
  · exact Tri.ofExcept (deser_noKey _) (fun _ _ _ h => h) (fun _ h => h)
  · exact Tri.ite (fun _ => Tri.throw _ fun _ h => h) fun _ => Tri.ite (fun _ => Tri.pure _ fun _ h => h) fun _ =>
      (Tri.onBus _).bind fun _ => Tri.pure _ fun _ h => h

theorem recvBodyLoop_tri (dbg : Bool) (b : Bus σ) (fuel : Nat) : ∀ r remain,
    Tri (Inv g) (recvBodyLoop dbg b fuel r remain : X _ (σ × Client x) _) (fun _ => Inv g) (Inv g) := by
  induction fuel with
  | zero => intros; exact Tri.stop _
  | succ fuel ih =>
    intro r remain
    refine Tri.ite (fun _ => Tri.pure _ fun _ h => h) fun _ => (Tri.onHl _).bind fun _ => ?_
    refine (Tri.onRx (TriB.extend g.n _ _) (fun _ h => h.rx) fun _ _ h hr => h.withRx hr).bind fun _ => ih _ _

theorem recvUnencryptedBody_tri (dbg : Bool) (b : Bus σ) (header : RecordHeader) :
    Tri (Inv g) (recvUnencryptedBody dbg b header : X _ (σ × Client x) _) (fun _ => Inv g) (Inv g) := by
  refine Tri.getC_bind fun c hc => Tri.pre (P := Inv g) ?_ (fun _ h => by rw [h]; exact hc)
  exact (Tri.onHl _).bind fun _ => (recvBodyLoop_tri _ _ _ _ _).bind fun _ => Tri.onBus _

theorem recvEncryptedBody_tri (dbg : Bool) (b : Bus σ) (secs : UInt32) (header : RecordHeader) :
    Tri (Inv g) (recvEncryptedBody dbg b secs header : X _ (σ × Client x) _) (fun _ => Inv g) (Lost g) := by
  refine Tri.getC_bind fun c hc => Tri.pre (P := Inv g) ?_ (fun _ h => by rw [h]; exact hc)
  cases c.ks.serverKeyAndNonce with
  | none => exact (failFatal_tri b _ secs).pre fun _ h => h.toWeak
  | some kn =>
    refine Tri.bind (R := fun _ => Inv g) (orFatal_tri b secs ?_) fun ct => ?_
    · exact (Tri.onRx (TriB.decryptRecord g.n _ _ _ _ _ _) (fun _ h => h.rx) fun _ _ h hr => h.withRx hr).conseq (fun _ h => h)
        (fun _ _ h => h) (fun _ h => h.toWeak)
    · cases ct
      · exact (failFatal_tri b _ secs).pre fun _ h => h.toWeak
      · exact Tri.pure _ fun _ h => h

theorem recvBody_tri (dbg : Bool) (b : Bus σ) (secs : UInt32) (header : RecordHeader) (outer : ContentType) :
    Tri (Inv g) (recvBody dbg b secs header outer : X _ (σ × Client x) _) (fun _ => Inv g) (Lost g) := by
  refine Tri.ite (fun _ => recvEncryptedBody_tri dbg b secs header) fun _ => ?_
  exact (orFatal_tri b secs ((recvUnencryptedBody_tri dbg b header).conseq (fun _ h => h) (fun _ _ h => h) (fun _ h => h.toWeak))).bind
    fun _ => Tri.pure _ fun _ h => h

theorem countAppData_tri (dbg : Bool) (header : RecordHeader) (ct : ContentType) :
    Tri (Inv g) (countAppData dbg header ct : X _ (σ × Client x) _) (fun _ => Inv g) (Lost g) := by
  refine Tri.ite (fun _ => Tri.getC_bind fun c hc => ?_) fun _ => Tri.pure _ fun _ h => h
  refine Tri.bind (R := fun rx u => u = c ∧ BOk g.n rx) (Tri.ofCipher ?_) fun rx => Tri.modC ?_
  · intro rx hrx u hu
    refine ⟨hu, ?_⟩
    unfold Buffer.incrementApplicationDataTail at hrx
    split at hrx
    · simp at hrx
    · injection hrx with hrx
      subst hrx
      have h := hc.rx
      have h0 : 0 < g.n := Nat.lt_of_le_of_lt (Nat.zero_le _) h.head
      exact ⟨h.size, h.head, h.tail, by show (_ % c.rx.n) < g.n; rw [show c.rx.n = g.n from h.size]; exact Nat.mod_lt _ h0⟩
  · rintro u ⟨rfl, hr⟩; exact hc.withRx hr

/-! ## Handshake messages -/

theorem message_bytes (hdr : HandshakeHeader) (type : HandshakeType) (body : Bytes) (ht : hdr.msgType = .ok type)
    (hl : body.length = hdr.length.toNat) : hdr.toList ++ body = (HsMsg.mk type.code body).bytes := by
  have hv : hdr.toList = [hdr[0], hdr[1], hdr[2], hdr[3]] := by
    apply List.ext_getElem
    · simp
    · intro i h1 h2
      match i, h2 with
      | 0, _ => simp
      | 1, _ => simp
      | 2, _ => simp
      | 3, _ => simp
  have h0 : hdr[0] = type.code := by
    exact (C78_codes_convert.2.2.2.1.exact _ _ ht).symm
  unfold HandshakeHeader.length at hl
  rw [UInt32.toNat_and] at hl
  change body.length = (be32 hdr[0] hdr[1] hdr[2] hdr[3]).toNat &&& (2 ^ 24 - 1) at hl
  rw [Nat.and_two_pow_sub_one_eq_mod, be32_toNat] at hl
  have h1 := hdr[1].toNat_lt; have h2 := hdr[2].toNat_lt; have h3 := hdr[3].toNat_lt
  unfold HsMsg.bytes
  dsimp only
  rw [hv]
  show hdr[0] :: hdr[1] :: hdr[2] :: hdr[3] :: body = _
  have e1 : hdr[1] = UInt8.ofNat (body.length / 65536) := by
    apply UInt8.toNat_inj.mp; rw [UInt8.toNat_ofNat']; omega
  have e2 : hdr[2] = UInt8.ofNat (body.length / 256) := by
    apply UInt8.toNat_inj.mp; rw [UInt8.toNat_ofNat']; omega
  have e3 : hdr[3] = UInt8.ofNat body.length := by
    apply UInt8.toNat_inj.mp; rw [UInt8.toNat_ofNat']; omega
  rw [h0, ← e1, ← e2, ← e3]

/-- The message that is being handled. -/
structure Msg (g : Cfg) (hdr : HandshakeHeader) (r : CircleReader) (body : Bytes) : Prop where
  parts : r = CircleReader.new r.a r.b
  whole : r.a ++ r.b = body
  length : body.length = hdr.length.toNat
  small : body.length + 5 ≤ g.n

/-- What holds after a message, when the transcript is not yet updated. -/
def After (g : Cfg) (hash : Bytes) (c : Client x) : Prop := Inv g { c with ks := { c.ks with transcript := hash } }

theorem onServerHello_tri (hx : x.Standard) (hn : g.n ≤ 16384) (secs : UInt32) {hdr : HandshakeHeader} {r : CircleReader} {body : Bytes}
    (hm : Msg g hdr r body) (ht : hdr.msgType = .ok .serverHello) {c : Client x} (hc : Inv g c) :
    Tri (fun u => u = c) (onServerHello 65536 secs (c.ks.transcript ++ hdr.toList ++ r.a ++ r.b) r : X _ (σ × Client x) Unit)
      (fun _ => After g (c.ks.transcript ++ hdr.toList ++ r.a ++ r.b)) (Weak g) := by
  have hmb := message_bytes hdr _ body ht hm.length
  have hhash : c.ks.transcript ++ hdr.toList ++ r.a ++ r.b = [c.ks.transcript, (HsMsg.mk 2 body).bytes].flatten := by
    rw [List.append_assoc, List.append_assoc, hm.whole, hmb]; simp; rfl
  rw [hhash]
  have hsm := hm.small
  have hb := hm.whole
  have hlen := congrArg List.length hb
  refine Tri.getC_bind fun c' hc' => ?_
  subst hc'
  refine Tri.ite (fun _ => Tri.throw _ fun _ h => by rw [h]; exact hc.toWeak) fun hs => ?_
  rw [Decidable.not_not] at hs
  have hst := hc.st
  rw [hs] at hst
  obtain ⟨s, s1, s2, s3⟩ := hst
  refine Tri.bind (R := fun p u => u = c' ∧ ∃ key, HelloBody body key ∧ x.sec1 key = some p) ?_ fun p => ?_
  · refine Tri.ofExcept ?_ ?_ fun _ h => by rw [h]; exact hc.toWeak
    · rw [hm.parts]
      rcases C58_server_hello_parse_ends x.sec1 r.a r.b (by omega) 65536 (by omega) with ⟨k, e⟩ | ⟨k, e⟩ <;> rw [e] <;> simp
    · intro p hp u hu
      rw [hm.parts, C58_server_hello_accepted_iff _ _ _ _ (by omega) _ (by omega), hb] at hp
      obtain ⟨random, len, extensions, rest, key, h1, h2, h3, h4, h5, h6⟩ := hp
      exact ⟨hu, key, ⟨random, len, extensions, rest, h1, h2, h3, h4, h5⟩, h6⟩
  · refine Tri.of_pre fun c'' ⟨hc'', hkey⟩ => ?_
    subst hc''
    rw [handshake_run hx { c''.ks with serverPublic := some p, transcript := [c''.ks.transcript, (HsMsg.mk 2 body).bytes].flatten }
      g.psk [c''.ks.transcript, (HsMsg.mk 2 body).bytes] s3 s1 rfl rfl]
    refine Tri.bind (R := fun k u => u = c'' ∧ k = _) (Tri.unwrap (by simp) fun a ha t ht => ⟨ht, (Option.some.inj ha).symm⟩) fun k => ?_
    refine Tri.modC ?_
    rintro u ⟨rfl, rfl⟩
    exact ⟨⟨hc.psk, hc.identity, hc.host, hc.rx, fun _ => by show some _ ≠ none; simp⟩,
      ⟨s, p, _, body, ⟨s2, hkey, rfl, rfl, rfl⟩, rfl⟩⟩

theorem Inv.connectedWith {c : Client x} (hc : Inv g c) (hs : c.state = .connected) (k : KeySchedule x)
    (hk : k.clientTraffic ≠ none) : Inv g { c with ks := k } := by
  have hst := hc.st
  rw [hs] at hst
  refine ⟨⟨hc.psk, hc.identity, hc.host, hc.rx, fun _ => hk⟩, ?_⟩
  show St g c.state k
  rw [hs]
  exact ⟨hk, hst.2⟩

theorem onNewSessionTicket_tri {c : Client x} (hc : Inv g c) (hash : Bytes) :
    Tri (fun u => u = c) (onNewSessionTicket : X _ (σ × Client x) Unit) (fun _ => After g hash) (Weak g) := by
  refine Tri.getC_bind fun c' hc' => ?_
  subst hc'
  refine Tri.ite (fun _ => Tri.throw _ fun _ h => by rw [h]; exact hc.toWeak) fun hs => Tri.pure _ ?_
  rintro u rfl
  rw [Decidable.not_not] at hs
  have hst := hc.st
  rw [hs] at hst
  exact hc.connectedWith hs _ hst.1

theorem onEncryptedExtensions_tri (hn : g.n ≤ 16384) (secs : UInt32) {hdr : HandshakeHeader} {r : CircleReader} {body : Bytes}
    (hm : Msg g hdr r body) (ht : hdr.msgType = .ok .encryptedExtensions) {c : Client x} (hc : Inv g c) :
    Tri (fun u => u = c) (onEncryptedExtensions 65536 secs r : X _ (σ × Client x) Unit)
      (fun _ => After g (c.ks.transcript ++ hdr.toList ++ r.a ++ r.b)) (Weak g) := by
  have hmb := message_bytes hdr _ body ht hm.length
  have hsm := hm.small
  have hb := hm.whole
  have hlen := congrArg List.length hb
  refine Tri.getC_bind fun c' hc' => ?_
  subst hc'
  refine Tri.ite (fun _ => Tri.throw _ fun _ h => by rw [h]; exact hc.toWeak) fun hs => ?_
  rw [Decidable.not_not] at hs
  have hst := hc.st
  rw [hs] at hst
  obtain ⟨s, p, ch, sh, hk, htr⟩ := hst
  refine Tri.bind (R := fun _ u => u = c' ∧ ExtensionsBody body) ?_ fun _ => ?_
  · have h58 := C58_encrypted_extensions_accepted_iff r.a r.b (by omega) 65536 (by omega)
    rw [← hm.parts, hb] at h58
    refine Tri.ofExcept ?_ ?_ fun _ h => by rw [h]; exact hc.toWeak
    · rcases h58.2 with e | ⟨k, e⟩ <;> rw [e] <;> simp
    · intro a ha u hu
      exact ⟨hu, h58.1.1 ha⟩
  · refine Tri.modC ?_
    rintro u ⟨rfl, he⟩
    refine ⟨⟨hc.psk, hc.identity, hc.host, hc.rx, hc.keys⟩, s, p, ch, sh, body, ⟨hk.said, hk.hello, hk.client, hk.server, hk.secret⟩, he, ?_⟩
    show u.ks.transcript ++ hdr.toList ++ r.a ++ r.b = _
    rw [List.append_assoc, List.append_assoc, hm.whole, hmb, htr]
    simp; rfl

theorem readExact_noKey (r : CircleReader) (n : Nat) : r.readExact n ≠ .error .noKey := by
  unfold CircleReader.readExact
  split <;> simp

theorem onFinished_tri (hx : x.Standard) (hn : g.n ≤ 16384) (secs : UInt32) {hdr : HandshakeHeader} {r : CircleReader} {body : Bytes}
    (hm : Msg g hdr r body) (ht : hdr.msgType = .ok .finished) {c : Client x} (hc : Inv g c) :
    Tri (fun u => u = c) (onFinished secs hdr r : X _ (σ × Client x) Unit)
      (fun _ => After g (c.ks.transcript ++ hdr.toList ++ r.a ++ r.b)) (Weak g) := by
  have hmb := message_bytes hdr _ body ht hm.length
  have hsm := hm.small
  have hb := hm.whole
  have hlen := congrArg List.length hb
  refine Tri.getC_bind fun c' hc' => ?_
  subst hc'
  refine Tri.ite (fun _ => Tri.throw _ fun _ h => by rw [h]; exact hc.toWeak) fun hs => ?_
  refine Tri.ite (fun _ => Tri.throw _ fun _ h => by rw [h]; exact hc.toWeak) fun hl => ?_
  rw [Decidable.not_not] at hs hl
  have hst := hc.st
  rw [hs] at hst
  obtain ⟨s, p, ch, sh, ee, hk, hee, htr⟩ := hst
  refine Tri.bind (R := fun v u => u = c' ∧ v.1 = body) ?_ fun v => ?_
  · refine Tri.ofExcept (readExact_noKey _ _) ?_ fun _ h => by rw [h]; exact hc.toWeak
    intro a ha u hu
    refine ⟨hu, ?_⟩
    have hr : CRel r (r.a ++ r.b) 0 := by
      rw [hm.parts]; exact ⟨rfl, rfl, Nat.zero_le _, by show (r.a ++ r.b).length ≤ 32767; omega⟩
    rw [hr.readExact_iff] at ha
    obtain ⟨h1, h2, -⟩ := ha
    rw [List.drop_zero, hb] at h2
    refine h2.eq_of_length ?_
    rw [h1, hm.length, hl]; rfl
  · refine Tri.bind (R := fun _ u => u = c' ∧
        body = Spec.Tls.verifyData (Spec.Tls.serverHandshakeTraffic g.psk (x.dh s p) [ch, (HsMsg.mk 2 sh).bytes])
          [ch, (HsMsg.mk 2 sh).bytes, (HsMsg.mk 8 ee).bytes]) ?_ fun _ => ?_
    · refine Tri.of_pre fun c'' ⟨hc'', hv⟩ => ?_
      subst hc''
      have hver : c''.ks.verifyServerFinished v.1 = if Spec.Tls.verifyData
          (Spec.Tls.serverHandshakeTraffic g.psk (x.dh s p) [ch, (HsMsg.mk 2 sh).bytes])
          [ch, (HsMsg.mk 2 sh).bytes, (HsMsg.mk 8 ee).bytes] = body then .ok () else .error (.err .decryptError) := by
        unfold KeySchedule.verifyServerFinished
        rw [hk.server]
        dsimp only
        rw [finished_eq hx c''.ks _ _ htr, hv]
      rw [hver]
      refine Tri.ofExcept ?_ ?_ fun _ h => by rw [h]; exact hc.toWeak
      · split <;> simp
      · intro a ha u hu
        refine ⟨hu, ?_⟩
        split at ha
        · rename_i h; exact h.symm
        · simp at ha
    · refine Tri.modC ?_
      rintro u ⟨rfl, he⟩
      refine ⟨⟨hc.psk, hc.identity, hc.host, hc.rx, hc.keys⟩, s, p, ch, sh, ee,
        ⟨hk.said, hk.hello, hk.client, hk.server, hk.secret⟩, hee, ?_⟩
      show u.ks.transcript ++ hdr.toList ++ r.a ++ r.b = _
      rw [List.append_assoc, List.append_assoc, hm.whole, hmb, htr, he]
      simp [serverFinished]; rfl

theorem onKeyUpdate_tri (hdr : HandshakeHeader) (r : CircleReader) {c : Client x} (hc : Inv g c) (hash : Bytes) :
    Tri (fun u => u = c) (onKeyUpdate hdr r : X _ (σ × Client x) Unit) (fun _ => After g hash) (Weak g) := by
  refine Tri.getC_bind fun c' hc' => ?_
  subst hc'
  refine Tri.ite (fun _ => Tri.throw _ fun _ h => by rw [h]; exact hc.toWeak) fun hs => ?_
  refine Tri.ite (fun _ => Tri.throw _ fun _ h => by rw [h]; exact hc.toWeak) fun hl => ?_
  rw [Decidable.not_not] at hs
  have hst := hc.st
  rw [hs] at hst
  refine Tri.bind (R := fun _ u => u = c') ?_ fun v => ?_
  · refine Tri.ofExcept ?_ (fun _ _ _ h => h) fun _ h => by rw [h]; exact hc.toWeak
    unfold CircleReader.nextU8
    have := readExact_noKey r 1
    rcases h : r.readExact 1 with e | a
    · rw [h] at this
      intro e; simp [bind, Except.bind] at e; exact this (by rw [e])
    · simp [bind, Except.bind]
  · dsimp only
    split
    · refine Tri.pure _ ?_
      rintro u rfl; exact hc.connectedWith hs _ hst.1
    · refine Tri.modC ?_
      rintro u rfl; exact hc.connectedWith hs _ (by show some _ ≠ none; simp)
    · exact Tri.throw _ fun _ h => by rw [h]; exact hc.toWeak

theorem onHandshake_tri (hx : x.Standard) (hn : g.n ≤ 16384) (secs : UInt32) {hdr : HandshakeHeader} {r : CircleReader} {body : Bytes}
    (hm : Msg g hdr r body) {c : Client x} (hc : Inv g c) :
    Tri (fun u => u = c) (onHandshake 65536 secs (c.ks.transcript ++ hdr.toList ++ r.a ++ r.b) hdr r : X _ (σ × Client x) Unit)
      (fun _ => After g (c.ks.transcript ++ hdr.toList ++ r.a ++ r.b)) (Weak g) := by
  have ht : ∀ e, Tri (fun u => u = c) (X.throw e : X AlertDescription (σ × Client x) Unit)
      (fun _ => After g (c.ks.transcript ++ hdr.toList ++ r.a ++ r.b)) (Weak g) :=
    fun e => Tri.throw _ fun _ h => by rw [h]; exact hc.toWeak
  unfold onHandshake
  split
  · exact ht _
  · exact onServerHello_tri hx hn secs hm ‹_› hc
  · exact onNewSessionTicket_tri hc _
  · exact ht _
  · exact onEncryptedExtensions_tri hn secs hm ‹_› hc
  · exact ht _
  · exact ht _
  · exact ht _
  · exact onFinished_tri hx hn secs hm ‹_› hc
  · exact onKeyUpdate_tri _ _ hc _
  · exact ht _

theorem popHandshake_tri :
    Tri (Inv g) (popHandshake : X _ (σ × Client x) _) (fun m c => Inv g c ∧ ∀ hdr r, m = some (hdr, r) → ∃ body, Msg g hdr r body)
      (Weak g) := by
  refine Tri.getC_bind fun c hc => ?_
  refine Tri.bind (R := fun m u => u = c ∧ c.rx.popHandshakeRecord = .ok m) ?_ fun m => ?_
  · exact Tri.ofExcept (pop_noKey _) (fun a ha u hu => ⟨hu, ha⟩) fun _ h => by rw [h]; exact hc.toWeak
  · match m with
    | none => exact Tri.pure _ fun u hu => ⟨by rw [hu.1]; exact hc, fun _ _ h => by simp at h⟩
    | some ((hdr, r), rx) =>
      refine Tri.bind (R := fun _ u => Inv g u ∧ ∃ body, Msg g hdr r body) (Tri.modC ?_) fun _ => Tri.pure _ ?_
      · rintro u ⟨rfl, hp⟩
        obtain ⟨h1, ⟨a, d, h2, h3⟩, h4⟩ := hc.rx.pop hp
        refine ⟨hc.withRx h1, a ++ d, ?_⟩
        subst h2
        exact ⟨rfl, rfl, h3, by omega⟩
      · rintro u ⟨h1, h2⟩
        refine ⟨h1, fun hdr' r' h => ?_⟩
        injection h with h; injection h with e1 e2; subst e1 e2; exact h2

theorem recvHandshake_tri (hx : x.Standard) (hn : g.n ≤ 16384) (secs : UInt32) (fuel : Nat) :
    Tri (Inv g) (recvHandshake secs fuel : X _ (σ × Client x) Unit) (fun _ => Inv g) (Weak g) := by
  induction fuel with
  | zero => exact Tri.stop _
  | succ fuel ih =>
    refine popHandshake_tri.bind fun m => ?_
    match m with
    | none => exact Tri.pure _ fun _ h => h.1
    | some (hdr, r) =>
      refine Tri.getC_bind fun c hc => ?_
      obtain ⟨body, hm⟩ := hc.2 hdr r rfl
      exact (onHandshake_tri hx hn secs hm hc.1).bind fun _ => (Tri.modC (R := fun _ => Inv g) fun _ h => h).bind fun _ => ih

/-! ## Records -/

theorem recvAlertLevel_tri (d : AlertDescription) {Q : α → Client x → Prop} :
    Tri (Lost g) (recvAlertLevel d : X _ (σ × Client x) α) Q (Lost g) := by
  refine (Tri.onRx (TriB.popTail g.n) (fun _ h => h.rx) fun _ _ h hr => h.withRx hr).bind fun byte =>
    (Tri.modC (R := fun _ => Lost g) fun _ h => h.withRx h.rx.reset).bind fun _ => ?_
  cases byte <;> exact Tri.throw _ fun _ h => h

theorem failAlert_tri (dbg : Bool) (b : Bus σ) (header : RecordHeader) {Q : α → Client x → Prop} :
    Tri (Inv g) (failAlert dbg b header : X _ (σ × Client x) α) Q (Lost g) := by
  refine (Tri.modC (R := fun _ => Lost g) fun _ h => h.toWeak.reset).bind fun _ => Tri.ite (fun _ => ?_) fun _ => ?_
  · refine (Tri.modC (R := fun _ => Lost g) fun _ h => h.withRx h.rx.reset).bind fun _ => Tri.getC_bind fun c hc =>
      Tri.pre (P := Lost g) ?_ (fun _ h => by rw [h]; exact hc)
    exact Tri.bind (R := fun _ => Lost g) ((Tri.attempt (Tri.onBus _)).post fun r t h => by cases r <;> exact h) fun _ =>
      Tri.throw _ fun _ h => h
  · refine (Tri.onRx (TriB.popTail g.n) (fun _ h => h.rx) fun _ _ h hr => h.withRx hr).bind fun byte => ?_
    cases byte with
    | none =>
      exact (Tri.modC (R := fun _ => Lost g) fun _ h => h.withRx h.rx.reset).bind fun _ => Tri.throw _ fun _ h => h
    | some byte =>
      dsimp only
      split
      · exact Tri.throw _ fun _ h => h
      · exact recvAlertLevel_tri _

theorem recvContent_tri (hx : x.Standard) (hn : g.n ≤ 16384) (fuel : Nat) (b : Bus σ) (secs : UInt32) (header : RecordHeader)
    (ct : ContentType) :
    Tri (Inv g) (recvContent fuel b secs header ct : X _ (σ × Client x) _) (fun ev c => Inv g c ∧ ev ≠ some .handshakeFinished)
      (Lost g) := by
  unfold recvContent
  split
  · exact (orFatal_tri b secs (recvChangeCipherSpec_tri header)).bind fun _ => Tri.pure _ fun _ h => ⟨h, by simp⟩
  · exact (orFatal_tri b secs (recvHandshake_tri hx hn secs fuel)).bind fun _ => Tri.pure _ fun _ h => ⟨h, by simp⟩
  · refine Tri.getC_bind fun c hc => Tri.pre (P := Inv g) ?_ (fun _ h => by rw [h]; exact hc)
    exact Tri.ite (fun _ => Tri.pure _ fun _ h => ⟨h, by simp⟩) fun _ => (failFatal_tri b _ secs).pre fun _ h => h.toWeak

theorem Inv.withReadSeq {c : Client x} (h : Inv g c) (v : UInt64) : Inv g { c with ks := { c.ks with readSeq := v } } :=
  ⟨⟨h.psk, h.identity, h.host, h.rx, h.keys⟩, by
    have := h.st
    cases hs : c.state <;> simp only [hs, St] at this ⊢ <;>
      first
        | exact this
        | (obtain ⟨s, p, ch, sh, k, rest⟩ := this; exact ⟨s, p, ch, sh, ⟨k.said, k.hello, k.client, k.server, k.secret⟩, rest⟩)
        | (obtain ⟨s, p, ch, sh, ee, k, rest⟩ := this; exact ⟨s, p, ch, sh, ee, ⟨k.said, k.hello, k.client, k.server, k.secret⟩, rest⟩)⟩

theorem countRead_tri (outer : ContentType) (P : Client x → Prop) {E : Client x → Prop}
    (hP : ∀ c v, P c → P { c with ks := { c.ks with readSeq := v } }) :
    Tri P (countRead outer : X _ (σ × Client x) _) (fun _ => P) E := by
  refine Tri.ite (fun _ => Tri.getC_bind fun c hc => ?_) fun _ => Tri.pure _ fun _ h => h
  refine Tri.bind (R := fun k u => u = c ∧ ∃ v, k = { c.ks with readSeq := v }) (Tri.ofCipher ?_) fun k => Tri.modC ?_
  · intro k hk u hu
    refine ⟨hu, ?_⟩
    unfold KeySchedule.incrementReadSeq at hk
    split at hk
    · injection hk with hk; exact ⟨_, hk.symm⟩
    · simp at hk
  · rintro u ⟨rfl, v, rfl⟩; exact hP _ _ hc

theorem recvRecord_tri (hx : x.Standard) (hn : g.n ≤ 16384) (dbg : Bool) (fuel : Nat) (b : Bus σ) (secs : UInt32)
    (header : RecordHeader) (outer ct : ContentType) (fragment : Bool) :
    Tri (Inv g) (recvRecord dbg fuel b secs header outer ct fragment : X _ (σ × Client x) _)
      (fun ev c => Inv g c ∧ ev ≠ some .handshakeFinished) (Lost g) := by
  refine Tri.ite (fun _ => (failFatal_tri b _ secs).pre fun _ h => h.toWeak) fun _ => Tri.ite (fun _ => failAlert_tri dbg b header)
    fun _ => ?_
  refine (Tri.attempt (recvContent_tri hx hn fuel b secs header ct)).bind fun ret => ?_
  cases ret with
  | error e =>
    dsimp only
    exact (countRead_tri outer (Lost g) fun c v h => ⟨h.toInv.withReadSeq v, h.lost⟩).bind fun _ => Tri.throw _ fun _ h => h
  | ok ev =>
    exact (countRead_tri outer _ fun c v h => ⟨h.1.withReadSeq v, h.2⟩).bind fun _ =>
      show Tri _ (Pure.pure ev) _ _ from Tri.pure _ fun _ h => h

theorem recv_tri (hx : x.Standard) (hn : g.n ≤ 16384) (dbg : Bool) (fuel : Nat) (b : Bus σ) (secs : UInt32) :
    Tri (Inv g) (recv dbg fuel b secs : X _ (σ × Client x) _) (fun ev c => Inv g c ∧ ev ≠ some .handshakeFinished) (Lost g) := by
  refine (orFatal_tri b secs ((recvHeader_tri dbg b).conseq (fun _ h => h) (fun _ _ h => h) fun _ h => h.toWeak)).bind fun header => ?_
  cases header with
  | none => exact Tri.pure _ fun _ h => ⟨h, by simp⟩
  | some header =>
    refine Tri.getC_bind fun c hc => Tri.pre (P := Inv g) ?_ (fun _ h => by rw [h]; exact hc)
    split
    · exact Tri.stop _
    · exact (recvBody_tri dbg b secs header _).bind fun _ => (countAppData_tri dbg header _).bind fun _ =>
        recvRecord_tri hx hn dbg fuel b secs header _ _ _

/-! ## Connecting -/

theorem tlsTcpConnect_tri (dbg : Bool) (fuel : Nat) (b : Bus σ) (secs : UInt32) :
    Tri (fun c => Inv g c ∧ c.state = .reset) (tlsTcpConnect dbg fuel b secs : X _ (σ × Client x) _) (fun _ => Inv g) (Weak g) := by
  refine Tri.getC_bind fun c hc => Tri.conseq (P := fun c => Inv g c ∧ c.state = .reset) (Q := fun _ => Inv g)
    (E := fun c => Inv g c ∧ c.state = .reset) ?_ (fun _ h => by rw [h]; exact hc) (fun _ _ h => h) (fun _ h => h.1.toWeak)
  refine (Tri.onBus _).bind fun _ => (Tri.onBus _).bind fun _ => (Tri.onBus _).bind fun _ => (Tri.onBus _).bind fun _ =>
    (Tri.onBus _).bind fun _ => (Tri.onBus _).bind fun _ => Tri.bind (R := fun _ => Inv g) (Tri.modC ?_) fun _ => Tri.pure _ fun _ h => h
  rintro c ⟨h, hs⟩
  have := h.st
  rw [hs] at this
  exact ⟨⟨h.psk, h.identity, h.host, h.rx, h.keys⟩, this⟩

/-- After the client hello is made. -/
structure Made (g : Cfg) (rng : Rng x) (c : Client x) : Prop extends Weak g c where
  sec : c.ks.clientSecret = some rng.secret
  said : Said g rng.secret c.ks.transcript
  hkdf : c.ks.hkdf = Spec.Tls.earlySecret g.psk

theorem makeHello_tri (hx : x.Standard) (hn : g.n ≤ 16384) (hn' : 22 ≤ g.n) (hh : g.host.length < 256) (dbg : Bool) (rng : Rng x)
    (hr : rng.Ok) :
    Tri (fun c => Inv g c ∧ (g.once → c.state = .waitConInt)) (makeHello dbg rng : X _ (σ × Client x) _) (fun _ => Made g rng)
      (Weak g) := by
  refine Tri.bind (R := fun _ c => Weak g c ∧ c.ks.clientSecret = some rng.secret ∧ (g.once → c.ks.transcript = []))
    (Tri.modC ?_) fun _ => Tri.getC_bind fun c ⟨hc, h1, h2⟩ => ?_
  · rintro c ⟨h, hs⟩
    refine ⟨⟨h.psk, h.identity, h.host, h.rx.reset, h.keys⟩, rfl, fun ho => ?_⟩
    have := h.st
    rw [hs ho] at this
    exact this ho
  · have hsz : c.rx.n = g.n := hc.rx.size
    have hlim : c.recordSizeLimit.toNat = g.n - 22 := by
      unfold Client.recordSizeLimit
      rw [hsz]
      have e : (UInt16.ofNat g.n).toNat = g.n := by rw [UInt16.toNat_ofNat']; omega
      rw [u16_sub_toNat, u16_sub_toNat, u16_sub_toNat, e]
      show ((((g.n + 65536 - 16) % 65536) + 65536 - 5) % 65536 + 65536 - 1) % 65536 = _
      omega
    have hoff : (c.helloArgs rng).offer = g.offer rng := by
      unfold Client.helloArgs HelloArgs.offer Cfg.offer
      dsimp only
      rw [hc.psk, hc.identity, hc.host, hlim]
    refine Tri.bind (R := fun o u => u = c ∧ clientHelloSer dbg c.rx.n (c.helloArgs rng) c.ks = .ok o)
      (Tri.ofCipher fun a ha u hu => ⟨hu, ha⟩) fun o => ?_
    refine Tri.bind (R := fun _ => Made g rng) (Tri.modC ?_) fun _ => Tri.pure _ fun _ h => h
    rintro u ⟨rfl, ho⟩
    have ho' := (ser_iff hx dbg u.rx.n (u.helloArgs rng) u.ks o hr.random hr.key (by show u.hostname.length < 256; rw [hc.host]; exact hh)).1 ho
    obtain ⟨e, h, p, -, -, o3, -, -, -, o7⟩ := ho'
    have olen : o.1.length ≤ u.rx.buf.length := by
      rw [o7]
      simp only [List.length_append, List.length_cons, List.length_nil, toBe16_length]
      rw [show (Spec.Tls.binder _ _).length = 32 from hmac_length _ _]
      change _ ≤ u.rx.buf.length at o3
      omega
    refine ⟨⟨hc.psk, hc.identity, hc.host, ⟨?_, hc.rx.head, hc.rx.tail, hc.rx.ad⟩, ?_⟩, ?_, ?_, ?_⟩
    · show (writeAt u.rx.buf 0 o.1).length = g.n
      rw [writeAt_length (by omega)]; exact hc.rx.size
    · rw [o7]; exact hc.keys
    · rw [o7]; exact h1
    · intro hone
      refine ⟨rng, hr, rfl, ?_⟩
      rw [C57_client_hello hx dbg u.rx.n (u.helloArgs rng) u.ks (by omega) hr.random hr.key
        (by show u.hostname.length < 256; rw [hc.host]; exact hh) (h2 hone)] at ho
      split at ho
      · injection ho with ho
        rw [← ho, ← hoff]
      · simp at ho
    · rw [o7]
      show Spec.Tls.earlySecret u.psk = _
      rw [hc.psk]

theorem sendClientHello_tri (hx : x.Standard) (hn : g.n ≤ 16384) (hn' : 22 ≤ g.n) (hh : g.host.length < 256) (dbg : Bool)
    (b : Bus σ) (rng : Rng x) (hr : rng.Ok) (secs : UInt32) :
    Tri (fun c => Inv g c ∧ (g.once → c.state = .waitConInt)) (sendClientHello dbg b rng secs : X _ (σ × Client x) _)
      (fun _ => Inv g) (Weak g) := by
  refine (makeHello_tri hx hn hn' hh dbg rng hr).bind fun buf => Tri.getC_bind fun c hc =>
    Tri.conseq (P := Made g rng) (Q := fun _ => Inv g) (E := Made g rng) ?_ (fun _ h => by rw [h]; exact hc) (fun _ _ h => h)
      (fun _ h => h.toWeak)
  refine (Tri.onBus _).bind fun _ => (Tri.onBus _).bind fun _ => (Tri.onBus _).bind fun _ => Tri.getC_bind fun c hc => ?_
  refine Tri.bind (R := fun k u => u = c ∧ ∃ v, k = { c.ks with writeSeq := v }) (Tri.ofCipher ?_) fun k => Tri.modC ?_
  · intro k hk u hu
    refine ⟨hu, ?_⟩
    unfold KeySchedule.incrementWriteSeq at hk
    split at hk
    · injection hk with hk; exact ⟨_, hk.symm⟩
    · simp at hk
  · rintro u ⟨rfl, v, rfl⟩
    refine ⟨⟨hc.psk, hc.identity, hc.host, hc.rx, fun _ => by show some _ ≠ none; simp⟩, rng.secret, hc.sec, hc.said, ?_⟩
    exact (early_run hx { u.ks with writeSeq := v } g.psk hc.hkdf).1

theorem sendClientFinished_tri (hx : x.Standard) (b : Bus σ) :
    Tri (fun c => Inv g c ∧ c.state = .sendFinished) (sendClientFinished b : X _ (σ × Client x) _) (fun _ => Complete g) (Weak g) := by
  refine Tri.getC_bind fun c ⟨hc, hs⟩ => ?_
  have hst := hc.st
  rw [hs] at hst
  obtain ⟨s, p, ch, sh, ee, hk, hee, htr⟩ := hst
  have hct : c.ks.clientTraffic ≠ none := by rw [hk.client]; simp
  refine Tri.bind (R := fun _ u => u = c) (Tri.unwrap ?_ fun _ _ _ h => h) fun _ => ?_
  · unfold KeySchedule.clientFinishedVerifyData
    rw [hk.client]; simp
  · refine Tri.bind (R := fun _ u => u = c) ?_ fun _ => Tri.modC ?_
    · exact ((sendRecord_tri b _ _ (fun u => u = c) fun u hu => by rw [hu]; exact hct).mapErr _).conseq (fun _ h => h) (fun _ _ h => h)
        fun _ h => by rw [h]; exact hc.toWeak
    · rintro u rfl
      have hm := master_run hx u.ks g.psk (x.dh s p) _ hk.secret htr
      obtain ⟨key, k1, k2⟩ := hk.hello
      refine ⟨⟨hc.psk, hc.identity, hc.host, hc.rx, fun _ => by show some _ ≠ none; simp⟩, rfl, s, p, ch, sh, ee, key, hk.said, k1, k2, hee, ?_⟩
      show _ ∧ _
      rw [show (Client.setState .connected { u with ks := u.ks.initializeMasterSecret }).ks = u.ks.initializeMasterSecret from rfl, hm]
      exact ⟨htr, rfl, rfl, rfl, rfl⟩

/-! ## `process` -/

/-- What a call of `process` ends with. -/
def Out (g : Cfg) (ev : TEvent) (c : Client x) : Prop := (Inv g c ∧ ev ≠ .handshakeFinished) ∨ (ev = .handshakeFinished ∧ Complete g c)

theorem checkTimeout_tri (dbg : Bool) (secs : UInt32) :
    Tri (Inv g) (checkTimeout dbg secs : X _ (σ × Client x) _) (Out g) (Lost g) := by
  refine Tri.getC_bind fun c hc => Tri.pre (P := Inv g) ?_ (fun _ h => by rw [h]; exact hc)
  refine Tri.bind (R := fun _ => Inv g) (Tri.ofCipher fun _ _ _ h => h) fun e => ?_
  cases e with
  | none => exact Tri.pure _ fun _ h => .inl ⟨h, by simp⟩
  | some e =>
    refine Tri.ite (fun _ => Tri.bind (R := fun _ => Lost g) (Tri.modC fun c h => ?_) fun _ => Tri.throw _ fun _ h => h) fun _ =>
      Tri.pure _ fun _ h => .inl ⟨h, by simp⟩
    split
    · exact h.toWeak.reset
    · exact h.toWeak.to _ _ (.inr (.inl rfl))

theorem afterRecv_tri (hx : x.Standard) (dbg : Bool) (b : Bus σ) (secs : UInt32) :
    Tri (Inv g) (afterRecv dbg b secs : X _ (σ × Client x) _) (Out g) (Lost g) := by
  refine Tri.getC_bind fun c hc => Tri.ite (fun hs => ?_) fun _ => (checkTimeout_tri dbg secs).pre fun _ h => by rw [h]; exact hc
  exact (orFatal_tri b secs ((sendClientFinished_tri hx b).pre fun u h => by rw [h]; exact ⟨hc, hs⟩)).bind fun _ =>
    Tri.pure _ fun _ h => .inr ⟨rfl, h⟩

theorem receiveRecords_tri (hx : x.Standard) (hn : g.n ≤ 16384) (dbg : Bool) (fuel : Nat) (b : Bus σ) (secs : UInt32) :
    Tri (Inv g) (receiveRecords dbg fuel b secs : X _ (σ × Client x) _) (Out g) (Lost g) := by
  refine Tri.getC_bind fun c hc => Tri.pre (P := Inv g) ?_ (fun _ h => by rw [h]; exact hc)
  refine Tri.ite (fun _ => checkTimeout_tri dbg secs) fun _ => ?_
  refine (orFatal_tri b secs ((Tri.onBus _).conseq (fun _ h => h) (fun _ _ h => h) fun _ h => h.toWeak)).bind fun rsr =>
    Tri.ite (fun _ => ?_) fun _ => afterRecv_tri hx dbg b secs
  refine (recv_tri hx hn dbg fuel b secs).bind fun ev => ?_
  cases ev with
  | none => exact (afterRecv_tri hx dbg b secs).pre fun _ h => h.1
  | some ev => exact Tri.pure _ fun _ h => .inl ⟨h.1, fun e => h.2 (by rw [e])⟩

theorem onState_tri (hx : x.Standard) (hn : g.n ≤ 16384) (dbg : Bool) (fuel : Nat) (b : Bus σ) (secs : UInt32) :
    Tri (Inv g) (onState dbg fuel b secs : X _ (σ × Client x) _) (Out g) (Lost g) := by
  refine Tri.getC_bind fun c hc => ?_
  cases hs : c.state
  case reset =>
    exact (orFatal_tri b secs ((tlsTcpConnect_tri dbg fuel b secs).pre fun u h => by rw [h]; exact ⟨hc, hs⟩)).bind fun _ =>
      Tri.pure _ fun _ h => .inl ⟨h, by simp⟩
  case sendDiscon =>
    refine Tri.pre (P := Inv g) ?_ (fun _ h => by rw [h]; exact hc)
    exact (orFatal_tri b secs ((Tri.onBus _).conseq (fun _ h => h) (fun _ _ h => h) fun _ h => h.toWeak)).bind fun _ =>
      (Tri.modC (R := fun _ => Lost g) fun c h => h.toWeak.to _ _ (.inr (.inr rfl))).bind fun _ =>
      Tri.pure _ fun _ h => .inl ⟨h.toInv, by simp⟩
  all_goals exact (receiveRecords_tri hx hn dbg fuel b secs).pre fun _ h => by rw [h]; exact hc

theorem onInterrupt_tri (hx : x.Standard) (hn : g.n ≤ 16384) (dbg : Bool) (fuel : Nat) (b : Bus σ) (secs : UInt32) (ir : SocketInterrupt) :
    Tri (Inv g) (onInterrupt dbg fuel b secs ir : X _ (σ × Client x) _) (Out g) (Lost g) := by
  refine Tri.getC_bind fun c hc => ?_
  have reset : Tri (fun u => u = c) (modC Client.reset : X TErr (σ × Client x) Unit) (fun _ => Lost g) (Lost g) :=
    Tri.modC fun u h => by rw [h]; exact hc.toWeak.reset
  refine Tri.ite (fun _ => Tri.ite (fun _ => reset.bind fun _ => Tri.pure _ fun _ h => .inl ⟨h.toInv, by simp⟩) fun hs =>
    Tri.throw _ fun u hu => ?_) fun _ => Tri.ite (fun _ => reset.bind fun _ => Tri.throw _ fun _ h => h) fun _ =>
    Tri.ite (fun _ => ?_) fun _ => (onState_tri hx hn dbg fuel b secs).pre fun _ h => by rw [h]; exact hc
  · rw [Decidable.not_not] at hs
    rw [hu]; exact ⟨hc, by rw [hs]; decide⟩
  · exact (Tri.modC (R := fun _ => Lost g) fun u h => by
      rw [h]; exact hc.toWeak.resetKeys.to _ _ (.inr (.inl rfl))).bind fun _ => Tri.pure _ fun _ h => .inl ⟨h.toInv, by simp⟩

/-- How a call of `process` may end. -/
def EndsIn (g : Cfg) (r : Except (Fail TErr) TEvent × (σ × Client x)) : Prop :=
  match r with
  | (.ok ev, s') => Out g ev s'.2
  | (.error (.err _), s') => Lost g s'.2
  | (.error (.stop _), _) => True
  | (.error .noKey, _) => False

theorem EndsIn.of {m m' : X TErr (σ × Client x) TEvent} {P : Client x → Prop} (h : Tri P m (Out g) (Lost g)) {s : σ × Client x}
    (hs : P s.2) (e : m' = m) : EndsIn g (m' s) := by
  subst e
  have := h s hs
  unfold EndsIn
  rcases hm : m' s with ⟨(e | e | _) | a, s'⟩ <;> rw [hm] at this <;> exact this

/-- **The invariant of `process`.** -/
theorem process_inv (hx : x.Standard) (hn : g.n ≤ 16384) (hn' : 22 ≤ g.n) (hh : g.host.length < 256) (dbg : Bool) (fuel : Nat)
    (b : Bus σ) (rng : Rng x) (hr : rng.Ok) (secs : UInt32) (s : σ × Client x) (h : Inv g s.2)
    (ho : g.once → ∀ ir s', b.snIr s.2.sn s.1 = (.ok ir, s') → ir.conRaised = true → s.2.state = .waitConInt) :
    EndsIn g (process dbg fuel b rng secs s) := by
  unfold process
  rw [X.bind_ok (show getC s = (.ok s.2, s) from rfl)]
  have hst := onState_tri (σ := σ) hx hn dbg fuel b secs
  rcases hir : b.snIr s.2.sn s.1 with ⟨e | ir, s1⟩
  · have hs1 : ∀ e', (onBus (b.snIr s.2.sn) : X _ (σ × Client x) _) s = (.error e', (s1, s.2)) →
        e' = .err .internalError ∨ ∃ y, e' = .stop y := by
      intro e' he
      unfold onBus internal X.onFst X.mapErr X.ofM at he
      rw [hir] at he
      cases e <;> simp [X.ofErr, X.mapFail] at he <;> simp [← he]
    have hb : ∃ e', (onBus (b.snIr s.2.sn) : X _ (σ × Client x) _) s = (.error e', (s1, s.2)) := by
      unfold onBus internal X.onFst X.mapErr X.ofM
      rw [hir]
      exact ⟨_, rfl⟩
    obtain ⟨e', he'⟩ := hb
    rcases hs1 e' he' with rfl | ⟨y, rfl⟩
    · rw [X.bind_ok (X.attempt_err he')]
      exact EndsIn.of hst (s := (s1, s.2)) h rfl
    · rw [X.bind_error (e := .stop y) (s' := (s1, s.2)) (by unfold X.attempt; rw [he'])]
      trivial
  · have he : (onBus (b.snIr s.2.sn) : X _ (σ × Client x) _) s = (.ok ir, (s1, s.2)) := by
      unfold onBus internal X.onFst X.mapErr X.ofM
      rw [hir]
    rw [X.bind_ok (X.attempt_ok he)]
    dsimp only
    have main : Tri (fun u => Inv g u ∧ (g.once → ir.conRaised = true → u.state = .waitConInt))
        (if ir.anyRaised then onInterrupts dbg fuel b rng secs ir else onState dbg fuel b secs : X _ (σ × Client x) _) (Out g) (Lost g) := by
      refine Tri.ite (fun _ => Tri.getC_bind fun c hc => ?_) fun _ => hst.pre fun _ h => h.1
      refine Tri.pre (P := fun u => Inv g u ∧ (g.once → ir.conRaised = true → u.state = .waitConInt)) ?_ (fun _ h => by rw [h]; exact hc)
      refine (orFatal_tri b secs ((Tri.onBus _).conseq (fun _ h => h) (fun _ _ h => h) fun _ h => h.1.toWeak)).bind fun _ =>
        Tri.ite (fun hcon => ?_) fun _ => (onInterrupt_tri hx hn dbg fuel b secs ir).pre fun _ h => h.1
      exact (orFatal_tri b secs ((sendClientHello_tri hx hn hn' hh dbg b rng hr secs).pre fun u h => ⟨h.1, fun ho => h.2 ho hcon⟩)).bind
        fun _ => onInterrupt_tri hx hn dbg fuel b secs ir
    exact EndsIn.of main (s := (s1, s.2)) ⟨h, fun o c => ho o ir s1 hir c⟩ rfl

end Verif.Tls
