import Verif.Proof.TlsHandshake
/-!
# C59: the client is connected only after the handshake of RFC 8446, and no key is ever missing

The histories are those of a user who calls `process`, `write_all`, `writer` and `reader` in any order, with any chip: every call may
find another bus in another state, so that the peer, the chip and the bus may do anything between and during the calls.
-/
namespace Verif.Tls
open Verif Hl
open _root_.Verif.Spec (HsMsg)
open _root_.Verif.Spec.Tls (HelloBody ExtensionsBody serverFinished Offer)

variable {σ : Type} {x : Crypto}

/-- The arguments of `Client::new`.  `Client::new` does not compile for other sizes of the buffer. -/
structure Setup where
  sn : Sn
  srcPort : UInt16
  hostname : Bytes
  dst : SockAddr
  identity : Bytes
  psk : Bytes
  rx : Bytes
  hostname_short : hostname.length < 256
  rx_size : rx.length ∈ [1024, 2048, 4096, 8192, 16384]

/-- A client that has done nothing yet. -/
def Setup.client (u : Setup) (x : Crypto) : Client x := Client.new x u.sn u.srcPort u.hostname u.dst u.identity u.psk u.rx

/-- The offer the client has to make. -/
def Setup.offer (u : Setup) (rng : Rng x) : Offer :=
  { random := rng.random, host := u.hostname, publicKey := rng.publicKey, psk := u.psk, identity := u.identity
    limit := u.rx.length - 22 }

/-- The chip reports a connection only to a client that waits for one. -/
def ConWaits (b : Bus σ) (s : σ) (c : Client x) : Prop :=
  ∀ ir s', b.snIr c.sn s = (.ok ir, s') → ir.conRaised = true → c.state = .waitConInt

/-- The call has returned: with a value or with an error of the API, not with a panic and not never. -/
def Returned {α ε : Type} (r : Except (Fail ε) α) : Prop := (∃ a, r = .ok a) ∨ ∃ e, r = .error (.err e)

/-- The clients of the histories that begin with `start`.  If `once`, the chip reports connections only to clients that wait for one. -/
inductive Reached (σ : Type) (once : Prop) (start : Client x) : Client x → Prop where
  | new : Reached σ once start start
  | process {c c' : Client x} {s s' : σ} {r} (dbg : Bool) (fuel : Nat) (b : Bus σ) (rng : Rng x) (secs : UInt32) (h : Reached σ once start c)
      (hr : rng.Ok) (hone : once → ConWaits b s c) (run : process dbg fuel b rng secs (s, c) = (r, (s', c'))) (ret : Returned r) :
      Reached σ once start c'
  | writeAll {c c' : Client x} {s s' : σ} {r} (b : Bus σ) (data : Bytes) (h : Reached σ once start c)
      (run : tlsWriteAll b data (s, c) = (r, (s', c'))) (ret : Returned r) : Reached σ once start c'
  | write {c c' c'' : Client x} {s s' t t' : σ} {p p' : Ptrs} {r} (b b' : Bus σ) (h : Reached σ once start c)
      (run : tlsWriter b (s, c) = (.ok p, (s', c'))) (send : tlsSend b' p' (t, c') = (r, (t', c''))) (ret : Returned r) :
      Reached σ once start c''
  | read {c : Client x} {r r' : TlsReader} (h : Reached σ once start c) (run : c.reader = .ok r)
      (same : r'.head = r.head ∧ r'.wrap = r.wrap) : Reached σ once start { c with rx := { c.rx with head := r'.done } }

/-- The constants of a history. -/
def Setup.cfg (u : Setup) (before once : Prop) : Cfg :=
  { psk := u.psk, identity := u.identity, host := u.hostname, n := u.rx.length, before, once }

theorem Setup.sizes (u : Setup) : 22 ≤ u.rx.length ∧ u.rx.length ≤ 16384 := by
  have := u.rx_size
  simp only [List.mem_cons, List.not_mem_nil, or_false] at this
  omega

theorem Setup.inv (u : Setup) (once : Prop) : Inv (u.cfg True once) (u.client x) := by
  have := u.sizes
  refine ⟨⟨rfl, rfl, rfl, ⟨rfl, ?_, ?_, ?_⟩, fun h => absurd rfl h⟩, fun _ => rfl⟩ <;>
    (show 0 < u.rx.length; omega)

theorem tlsWriteAll_tri {g : Cfg} (b : Bus σ) (data : Bytes) :
    Tri (Inv g) (tlsWriteAll b data : X _ (σ × Client x) _) (fun _ => Inv g) (Inv g) := by
  refine Tri.getC_bind fun c hc => ?_
  split
  · rename_i hs
    have hs' : c.state = .connected := by simpa [Client.connected] using hs
    have hk : c.ks.clientTraffic ≠ none := by
      have := hc.st
      rw [hs'] at this
      exact this.1
    exact ((sendRecord_tri b _ _ (fun u => u = c) fun u hu => by rw [hu]; exact hk).mapErr _).conseq (fun _ h => h)
      (fun _ _ h => by rw [h]; exact hc) fun _ h => by rw [h]; exact hc
  · exact Tri.throw _ fun _ h => by rw [h]; exact hc

theorem tlsWriter_keeps {b : Bus σ} {s s' : σ} {c c' : Client x} {p : Ptrs}
    (run : tlsWriter b (s, c) = (.ok p, (s', c'))) : c' = c ∧ c.state = .connected := by
  have : Tri (fun u => u = c) (tlsWriter b : X _ (σ × Client x) _) (fun _ u => u = c ∧ c.state = .connected) (fun _ => True) := by
    refine Tri.getC_bind fun d hd => ?_
    subst hd
    split
    · rename_i hs
      have hs' : d.state = .connected := by simpa [Client.connected] using hs
      refine Tri.bind (R := fun _ u => u = d) ?_ fun fsr => Tri.ite (fun _ => Tri.throw _ fun _ _ => trivial) fun _ =>
        Tri.bind (R := fun _ u => u = d) ?_ fun wr => Tri.pure _ fun _ h => ⟨h, hs'⟩
      all_goals exact (Tri.onFst ((NK.ofM _).mapErr _)).conseq (fun _ h => h) (fun _ _ h => h) fun _ _ => trivial
    · exact Tri.throw _ fun _ _ => trivial
  have h := this (s, c) rfl
  rw [run] at h
  exact h

theorem tlsSend_keeps {g : Cfg} (b : Bus σ) (p : Ptrs) (s : σ) (c : Client x) (hc : Inv g c) (hs : c.state = .connected) :
    (tlsSend b p (s, c)).1 ≠ .error .noKey ∧ (Returned (tlsSend b p (s, c)).1 → Inv g (tlsSend b p (s, c)).2.2) := by
  have hst := hc.st
  rw [hs] at hst
  have hk : c.ks.clientKeyAndNonce ≠ none := by
    unfold KeySchedule.clientKeyAndNonce
    cases hh : c.ks.clientTraffic
    · exact absurd hh hst.1
    · simp
  have main : Tri (fun k => k = c.ks) (tlsWriterSend b p : X _ (σ × KeySchedule x) Unit) (fun _ k => ∃ v, k = { c.ks with writeSeq := v })
      (fun k => k = c.ks) := by
    have inner : Tri (fun k => k = c.ks) (unwrapKey c.ks.clientKeyAndNonce >>= fun kn =>
        (encryptRecordInplace b p.sn kn.1 kn.2 p.head p.ptr .applicationData).onFst >>= fun _ =>
        ofCipher c.ks.incrementWriteSeq >>= fun ks => (X.modify fun s => (s.1, ks)) : X Err (σ × KeySchedule x) Unit)
        (fun _ k => ∃ v, k = { c.ks with writeSeq := v }) (fun k => k = c.ks) := by
      refine Tri.bind (R := fun _ k => k = c.ks) (Tri.unwrap hk fun _ _ _ h => h) fun kn => Tri.bind (R := fun _ k => k = c.ks)
        (Tri.onFst (NK.encryptRecordInplace _ _ _ _ _ _ _)) fun _ => Tri.bind (R := fun k' _ => ∃ v, k' = { c.ks with writeSeq := v })
        (Tri.ofCipher fun k' hk' k hk => ?_) fun k' => fun t' ht' => ht'
      unfold KeySchedule.incrementWriteSeq at hk'
      split at hk'
      · injection hk' with hk'; exact ⟨_, hk'.symm⟩
      · simp at hk'
    rintro ⟨t, k⟩ ht
    dsimp only at ht
    subst ht
    exact inner (t, c.ks) rfl
  have hm := main (s, c.ks) rfl
  unfold tlsSend
  rcases hr : tlsWriterSend b p (s, c.ks) with ⟨(e | e | _) | a, t⟩ <;> rw [hr] at hm <;> dsimp only at hm ⊢
  · refine ⟨by simp, fun _ => ?_⟩
    rw [hm]; exact hc
  · refine ⟨by simp, fun h => ?_⟩
    rcases h with ⟨a, h⟩ | ⟨e, h⟩ <;> simp at h
  · refine ⟨by simp, fun _ => ?_⟩
    obtain ⟨v, hv⟩ := hm
    rw [hv]
    refine ⟨⟨hc.psk, hc.identity, hc.host, hc.rx, hc.keys⟩, ?_⟩
    show St g c.state _
    rw [hs]; exact hst

/-- Whether a client was connected does not matter for the other states. -/
theorem Inv.before {u : Setup} {once b b' : Prop} {c : Client x} (h : Inv (u.cfg b once) c) (hb : c.state = .connected → b') :
    Inv (u.cfg b' once) c := by
  refine ⟨⟨h.psk, h.identity, h.host, h.rx, h.keys⟩, ?_⟩
  have := h.st
  cases hs : c.state <;> rw [hs] at this
  case connected => exact ⟨this.1, hb hs⟩
  case waitEncryptedExtensions =>
    obtain ⟨s, p, ch, sh, k, r⟩ := this
    exact ⟨s, p, ch, sh, ⟨k.said, k.hello, k.client, k.server, k.secret⟩, r⟩
  case waitFinished =>
    obtain ⟨s, p, ch, sh, ee, k, r⟩ := this
    exact ⟨s, p, ch, sh, ee, ⟨k.said, k.hello, k.client, k.server, k.secret⟩, r⟩
  case sendFinished =>
    obtain ⟨s, p, ch, sh, ee, k, r⟩ := this
    exact ⟨s, p, ch, sh, ee, ⟨k.said, k.hello, k.client, k.server, k.secret⟩, r⟩
  all_goals exact this

theorem Complete.inv {u : Setup} {once b : Prop} {c : Client x} (h : Complete (u.cfg b once) c) : Inv (u.cfg True once) c := by
  refine ⟨⟨h.psk, h.identity, h.host, h.rx, h.keys⟩, ?_⟩
  rw [h.state]
  obtain ⟨s, p, ch, sh, ee, key, -, -, -, -, -, hc, -⟩ := h.done
  exact ⟨by rw [hc]; simp, trivial⟩

theorem reached_process {u : Setup} {once : Prop} (hx : x.Standard) {c : Client x} (h : Inv (u.cfg True once) c) (dbg : Bool) (fuel : Nat)
    (b : Bus σ) (rng : Rng x) (hr : rng.Ok) (secs : UInt32) (s : σ) (hone : once → ConWaits b s c) :
    EndsIn (u.cfg (c.state = .connected) once) (process dbg fuel b rng secs (s, c)) :=
  process_inv hx u.sizes.2 u.sizes.1 u.hostname_short dbg fuel b rng hr secs (s, c) (h.before fun h => h) hone

theorem reached_inv {u : Setup} {once : Prop} (hx : x.Standard) {c : Client x} (h : Reached σ once (u.client x) c) :
    Inv (u.cfg True once) c := by
  induction h with
  | new => exact u.inv once
  | process dbg fuel b rng secs h hr hone run ret ih =>
    have := reached_process hx ih dbg fuel b rng hr secs _ hone
    rw [run] at this
    rcases ret with ⟨ev, rfl⟩ | ⟨e, rfl⟩
    · rcases this with ⟨h, -⟩ | ⟨-, h⟩
      · exact h.before fun _ => trivial
      · exact h.inv
    · exact this.toInv.before fun _ => trivial
  | @writeAll c c' s s' r b data h run ret ih =>
    have := tlsWriteAll_tri (σ := σ) b data (s, c) ih
    rw [run] at this
    rcases ret with ⟨ev, rfl⟩ | ⟨e, rfl⟩ <;> exact this
  | @write c c' c'' s s' t t' p p' r b b' h run send ret ih =>
    obtain ⟨rfl, hs⟩ := tlsWriter_keeps run
    have := (tlsSend_keeps b' p' t c' ih hs).2
    rw [send] at this
    exact this ret
  | @read c r r' h run same ih =>
    refine ih.withRx ⟨ih.rx.size, ?_, ih.rx.tail, ih.rx.ad⟩
    unfold Client.reader Buffer.appDataReader at run
    split at run
    · simp at run
    · injection run with run
      have hw : r.wrap = u.rx.length := by rw [← run]; exact ih.rx.size
      show r'.done < u.rx.length
      unfold TlsReader.done
      rw [same.2, hw]
      have := u.sizes
      exact Nat.mod_lt _ (by omega)

/-- **C59.**  After any history, no call needs a key that has not been derived: none of the `unwrap`s of keys and secrets in `process`,
in `write_all` and in `send` panics. -/
theorem C59_no_missing_key (hx : x.Standard) (u : Setup) {c : Client x} (h : Reached σ False (u.client x) c) :
    (∀ dbg fuel (b : Bus σ) (rng : Rng x) secs s, rng.Ok → (process dbg fuel b rng secs (s, c)).1 ≠ .error .noKey) ∧
    (∀ (b : Bus σ) data s, (tlsWriteAll b data (s, c)).1 ≠ .error .noKey) ∧
    (∀ (b b' : Bus σ) s s' t c' p p', tlsWriter b (s, c) = (.ok p, (s', c')) → (tlsSend b' p' (t, c')).1 ≠ .error .noKey) := by
  have hi := reached_inv hx h
  refine ⟨fun dbg fuel b rng secs s hr e => ?_, fun b data s e => ?_, fun b b' s s' t c' p p' run => ?_⟩
  · have := reached_process hx hi dbg fuel b rng hr secs s False.elim
    rcases hp : process dbg fuel b rng secs (s, c) with ⟨r, t⟩
    rw [hp] at this e
    dsimp only at e
    rw [e] at this
    exact this
  · have := tlsWriteAll_tri (σ := σ) b data (s, c) hi
    rcases hp : tlsWriteAll b data (s, c) with ⟨r, t⟩
    rw [hp] at this e
    dsimp only at e
    rw [e] at this
    exact this
  · obtain ⟨rfl, hs⟩ := tlsWriter_keeps run
    exact (tlsSend_keeps b' p' t c' hi hs).1

/-- The client and the server agree: `ch` is the client hello, and the server has answered with a ServerHello that selects what was offered,
with EncryptedExtensions and with the Finished that proves its knowledge of the pre-shared key.  The client encrypts with the application
traffic secrets of these messages, beginning with the sequence number 0. -/
def Agreed (psk : Bytes) (ks : KeySchedule x) (secret : x.Secret) (ch : Bytes) : Prop :=
  ∃ key p shBody eeBody, HelloBody shBody key ∧ x.sec1 key = some p ∧ ExtensionsBody eeBody ∧
    ∃ sh ee fin, sh = (HsMsg.mk 2 shBody).bytes ∧ ee = (HsMsg.mk 8 eeBody).bytes ∧
      fin = serverFinished psk (x.dh secret p) ch sh ee ∧
      ks.transcript = ch ++ sh ++ ee ++ fin ∧
      ks.clientTraffic = some (Spec.Tls.clientAppTraffic psk (x.dh secret p) [ch, sh, ee, fin]) ∧
      ks.serverTraffic = some (Spec.Tls.serverAppTraffic psk (x.dh secret p) [ch, sh, ee, fin]) ∧
      ks.readSeq = 0 ∧ ks.writeSeq = 0

theorem Complete.agreed {u : Setup} {once b : Prop} {c : Client x} (h : Complete (u.cfg b once) c) :
    ∃ s ch, Said (u.cfg b once) s ch ∧ Agreed u.psk c.ks s ch := by
  obtain ⟨s, p, ch, sh, ee, key, h1, h2, h3, h4, h5, h6, h7, h8, h9⟩ := h.done
  exact ⟨s, ch, h1, key, p, sh, ee, h2, h3, h4, _, _, _, rfl, rfl, rfl, by simpa [List.append_assoc, Setup.cfg] using h5, h6, h7, h8, h9⟩

/-- **C59.**  After any history: a client that was not connected is connected after `process` exactly if `process` says that the handshake is
finished; then the server has answered the client's messages with ServerHello, EncryptedExtensions and a Finished that is right for the
pre-shared key. -/
theorem C59_authenticated (hx : x.Standard) (u : Setup) {c c' : Client x} (h : Reached σ False (u.client x) c) (dbg : Bool) (fuel : Nat)
    (b : Bus σ) (rng : Rng x) (hr : rng.Ok) (secs : UInt32) (s s' : σ) (r : Except (Fail TErr) TEvent)
    (run : process dbg fuel b rng secs (s, c) = (r, (s', c'))) (ret : Returned r) (hc : c.connected = false) :
    (c'.connected = true ↔ r = .ok .handshakeFinished) ∧
    (c'.connected = true → ∃ secret ch, Agreed u.psk c'.ks secret ch) := by
  have := reached_process hx (reached_inv hx h) dbg fuel b rng hr secs s False.elim
  rw [run] at this
  have hn : c.state ≠ .connected := by
    intro e; simp [Client.connected, e] at hc
  have hcs : ∀ d : Client x, d.connected = true ↔ d.state = .connected := by intro d; simp [Client.connected]
  rw [hcs]
  have no : ∀ {d : Client x}, Inv (u.cfg (c.state = .connected) False) d → d.state ≠ .connected := by
    intro d hd e
    have := hd.st
    rw [e] at this
    exact hn this.2
  rcases ret with ⟨ev, rfl⟩ | ⟨e, rfl⟩
  · rcases this with ⟨hi, he⟩ | ⟨rfl, hd⟩
    · have := no hi
      exact ⟨⟨fun h => absurd h this, fun h => by injection h with h; exact absurd h he⟩, fun h => absurd h this⟩
    · obtain ⟨secret, ch, -, ha⟩ := hd.agreed
      exact ⟨⟨fun _ => rfl, fun _ => hd.state⟩, fun _ => ⟨secret, ch, ha⟩⟩
  · have := no this.toInv
    exact ⟨⟨fun h => absurd h this, fun h => by simp at h⟩, fun h => absurd h this⟩

/-- **C59.**  If the chip reports connections only to a client that waits for one, the messages of the client are the one client hello of
RFC 8446 with its offer, made with a random and a key pair of the random number generator. -/
theorem C59_handshake (hx : x.Standard) (u : Setup) {c c' : Client x} (h : Reached σ True (u.client x) c) (dbg : Bool) (fuel : Nat)
    (b : Bus σ) (rng : Rng x) (hr : rng.Ok) (secs : UInt32) (s s' : σ) (r : Except (Fail TErr) TEvent) (hone : ConWaits b s c)
    (run : process dbg fuel b rng secs (s, c) = (r, (s', c'))) (ret : Returned r) (hc : c.connected = false)
    (hc' : c'.connected = true) :
    r = .ok .handshakeFinished ∧ ∃ rng : Rng x, rng.Ok ∧ Agreed u.psk c'.ks rng.secret (u.offer rng).hello := by
  have := reached_process hx (reached_inv hx h) dbg fuel b rng hr secs s fun _ => hone
  rw [run] at this
  have hn : c.state ≠ .connected := by
    intro e; simp [Client.connected, e] at hc
  have hn' : c'.state = .connected := by simpa [Client.connected] using hc'
  have no : ¬ Inv (u.cfg (c.state = .connected) True) c' := by
    intro hd
    have := hd.st
    rw [hn'] at this
    exact hn this.2
  rcases ret with ⟨ev, rfl⟩ | ⟨e, rfl⟩
  · rcases this with ⟨hi, -⟩ | ⟨rfl, hd⟩
    · exact absurd hi no
    · obtain ⟨secret, ch, hs, ha⟩ := hd.agreed
      obtain ⟨rng, h1, rfl, rfl⟩ := hs trivial
      exact ⟨rfl, rng, h1, ha⟩
  · exact absurd this.toInv no

/-- **C59.**  After any history: an error of `process` ends the connection. -/
theorem C59_error_disconnects (hx : x.Standard) (u : Setup) {c c' : Client x} (h : Reached σ False (u.client x) c) (dbg : Bool) (fuel : Nat)
    (b : Bus σ) (rng : Rng x) (hr : rng.Ok) (secs : UInt32) (s s' : σ) (e : TErr)
    (run : process dbg fuel b rng secs (s, c) = (.error (.err e), (s', c'))) : c'.connected = false := by
  have := reached_process hx (reached_inv hx h) dbg fuel b rng hr secs s False.elim
  rw [run] at this
  have := this.lost
  simpa [Client.connected] using this

end Verif.Tls
