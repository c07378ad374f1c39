import Verif.Proof.MqttTlsJoin
import Verif.Thm.TlsPolls
/-!
# C117: an MQTT client over TLS gets its CONNACK however the records of the server arrive
-/
namespace Verif.MqttTls
open Verif Hl
open _root_.Verif.Spec (World worldBus TxState RxState EnvStep)
open Verif.Tls (X Crypto TEvent Fail Rng Shake Shaking Pause)
open _root_.Verif.Spec.Tls (Answer)
open _root_.Verif.Spec.TlsPolls (Poll Clock)
open _root_.Verif.Spec.MqttTlsPolls (poll polls AsksAgain)

variable {x : Crypto}

theorem Established.pause {h : Shake x} {m : Nat} {sent : List Bytes} {p : Nat} {D : Bytes} {w : World} {c : Tls.Client x}
    (g : Established h m sent p D w c) (q : Pause) (hq : q.Calm h.sn.toU8.toNat) : Established h m sent p D (q.after w) c :=
  { g with
    ready := ⟨g.ready.connected, g.ready.traffic, g.ready.client, g.ready.seq, g.ready.holds, q.rx g.ready.rx, (q.tx g.ready.tx).1⟩
    peace := Pause.peace g.peace hq
    sent := by rw [q.sent]; exact g.sent }

theorem Joining.pause {h : Shake x} {c0 : Client x} {i : Nat} {t : UInt32} {F : Nat} {sent : List Bytes} {w : World} {c : Client x}
    (g : Joining h c0 i t F sent w c) (q : Pause) (hq : q.Calm h.sn.toU8.toNat) : Joining h c0 i t F sent (q.after w) c := by
  unfold Joining at g ⊢
  by_cases hi : i ≤ 2
  · rw [if_pos hi] at g ⊢
    exact ⟨g.1, g.2.pause hi q hq⟩
  · rw [if_neg hi] at g ⊢
    exact ⟨g.1, g.2.pause q hq⟩

theorem Joining.sent {h : Shake x} {c0 : Client x} {i : Nat} {t : UInt32} {F : Nat} {sent : List Bytes} {w : World} {c : Client x}
    (g : Joining h c0 i t F sent w c) : w.chip.sent.map (·.payload) = sent ∨
      w.chip.sent.map (·.payload) = sent ++ [h.a.reply h.psk h.dhe h.ch, connectRecord h c0] := by
  unfold Joining at g
  by_cases hi : i ≤ 2
  · rw [if_pos hi] at g
    exact .inl g.2.sent
  · rw [if_neg hi] at g
    exact .inr g.2.sent

/-- How the calls `qs` from `s` end when `i` records have been handled. -/
def JoinEnd (h : Shake x) (c0 : Client x) (fuel : Nat) (i : Nat) (t0 : UInt32) (sent : List Bytes) (D rest : Bytes) (qs : List (Poll x))
    (s : World × Client x) : Prop :=
  let rs := (polls fuel qs s).1
  let after := fun n => (polls fuel (qs.take n) s).2
  let late := fun j => ∀ m, m + (4 - i) ≤ j → ¬ h.flight ++ brokerRecord h D <+: ((after m).1.chip.received h.sn.toU8.toNat).drop h.p
  let sentOk := fun n => (after n).1.chip.sent.map (·.payload) = sent ∨
    (after n).1.chip.sent.map (·.payload) = sent ++ [h.a.reply h.psk h.dhe h.ch, connectRecord h c0]
  ∃ j, j ≤ qs.length ∧ (∀ r ∈ rs.take j, AsksAgain r) ∧
    ((j = qs.length ∧ late j ∧ sentOk j) ∨
    (rs[j]? = some (.ok .connAck) ∧ Joined h c0 sent D rest (after (j + 1)).1 (after (j + 1)).2) ∨
    (∃ q, qs[j]? = some q ∧ rs[j]? = some (.error (.err (.mqtt (.stateTimeout .waitConAck)))) ∧ t0.toNat + 10 < q.secs.toNat ∧ late (j + 1) ∧
      sentOk (j + 1)))

theorem join_polls (hx : x.Standard) (fuel : Nat) (h : Shake x) (c0 : Client x) (ha : Tls.Honest x h.a h.pub h.n) (hn : 79 ≤ h.n ∧ h.n ≤ 32768)
    (hid : ∀ i, c0.clientId = some i → i.length ≤ 23) (t0 : UInt32) {F : Nat}
    (hF : 80 + (Spec.Mqtt.connect 900 (h.n - 22) (c0.clientId.getD [])).length ≤ F) {sent : List Bytes}
    (sp : UInt8) (props rest : Bytes) (hprops : props.length < 125)
    (hD1 : (Spec.Mqtt.connack sp 0 props ++ rest).length + 39 ≤ h.n) (more : Bytes) (qs : List (Poll x)) :
    ∀ {i : Nat} (_ : i ≤ 3) {t : UInt32} {w : World} {c : Client x}
    (_ : t0.toNat ≤ t.toNat) (_ : Joining h c0 i t F sent w c) (_ : ∀ q ∈ qs, q.quiet h.sn.toU8.toNat) (_ : Clock t (qs.map (·.secs)))
    (_ : ∀ n, n ≤ qs.length → ((polls (fuel + 2) (qs.take n) (w, c)).2.1.chip.received h.sn.toU8.toNat).drop h.p <+:
      h.flight ++ brokerRecord h (Spec.Mqtt.connack sp 0 props ++ rest) ++ more),
    JoinEnd h c0 (fuel + 2) i t0 sent (Spec.Mqtt.connack sp 0 props ++ rest) rest qs (w, c) := by
  generalize hall : h.flight ++ brokerRecord h (Spec.Mqtt.connack sp 0 props ++ rest) = all at *
  induction qs with
  | nil =>
    intro i hi t w c _ g _ _ _
    refine ⟨0, Nat.le_refl _, (by intro r hr; cases hr), .inl ⟨rfl, ?_, g.sent⟩⟩
    intro m hm
    omega
  | cons q qs ih =>
    intro i hi t w c ht0 g hq hc hst
    obtain ⟨hc1, hc2⟩ := List.pairwise_cons.1 hc
    have htq : t.toNat ≤ q.secs.toNat := hc1 _ List.mem_cons_self
    have hg := g.pause ⟨q.before, q.during⟩ (hq q List.mem_cons_self)
    have hst1 := hst 1 (by rw [List.length_cons]; omega)
    rw [← hall] at hst1
    have hcase := join_cases hx fuel q.rng q.secs h c0 ha hn hid hi hF hg htq sp props rest hprops hD1 more hst1
    dsimp only at hcase
    rw [show process false (fuel + 2) worldBus q.rng q.secs ((Pause.mk q.before q.during).after w, c) = poll (fuel + 2) q (w, c) from rfl, hall] at hcase
    obtain ⟨hpre, hcase⟩ := hcase
    have hpre0 : w.chip.received h.sn.toU8.toNat <+: (poll (fuel + 2) q (w, c)).2.1.chip.received h.sn.toU8.toNat :=
      (Pause.received _ w _).trans hpre
    have hst' : ∀ n, n ≤ qs.length →
        ((polls (fuel + 2) (qs.take n) (poll (fuel + 2) q (w, c)).2).2.1.chip.received h.sn.toU8.toNat).drop h.p <+: all ++ more :=
      fun n hn => hst (n + 1) (by rw [List.length_cons]; omega)
    have hq' : ∀ q ∈ qs, q.quiet h.sn.toU8.toNat := fun q' h' => hq q' (List.mem_cons_of_mem _ h')
    have hw0 : ∀ {l l' : Bytes}, l <+: l' → ¬ all <+: l'.drop h.p → ¬ all <+: l.drop h.p :=
      fun hl hn hf => hn (hf.trans (_root_.Verif.prefix_drop hl _))
    have hnext : ∀ i', i' ≤ i + 1 → AsksAgain (poll (fuel + 2) q (w, c)).1 →
        (i' = i → ¬ all <+: (w.chip.received h.sn.toU8.toNat).drop h.p) → i ≤ i' →
        JoinEnd h c0 (fuel + 2) i' t0 sent (Spec.Mqtt.connack sp 0 props ++ rest) rest qs (poll (fuel + 2) q (w, c)).2 →
        JoinEnd h c0 (fuel + 2) i t0 sent (Spec.Mqtt.connack sp 0 props ++ rest) rest (q :: qs) (w, c) := by
      intro i' hi1 hl hwait hi2 ⟨j, hj, hr, hcases⟩
      rw [hall] at hcases
      unfold JoinEnd
      rw [hall]
      have hlate : ∀ J, (∀ m, m + (4 - i') ≤ J → ¬ all <+:
            ((polls (fuel + 2) (qs.take m) (poll (fuel + 2) q (w, c)).2).2.1.chip.received h.sn.toU8.toNat).drop h.p) →
          ∀ m, m + (4 - i) ≤ J + 1 → ¬ all <+:
            ((polls (fuel + 2) ((q :: qs).take m) (w, c)).2.1.chip.received h.sn.toU8.toNat).drop h.p := by
        intro J hl m hm
        match m with
        | m + 1 => exact hl m (by omega)
        | 0 =>
          by_cases he : i' = i
          · exact hwait he
          · exact hw0 hpre0 (hl 0 (by omega))
      refine ⟨j + 1, by rw [List.length_cons]; omega, ?_, ?_⟩
      · intro r hr'
        rcases List.mem_cons.1 (show r ∈ (poll (fuel + 2) q (w, c)).1 :: ((polls (fuel + 2) qs (poll (fuel + 2) q (w, c)).2).1.take j) from hr') with rfl | h'
        · exact hl
        · exact hr r h'
      · rcases hcases with ⟨h1, h2, h3⟩ | ⟨h1, h2⟩ | ⟨q', h1, h2, h3, h4, h5⟩
        · exact .inl ⟨by rw [List.length_cons, h1], hlate j h2, h3⟩
        · exact .inr (.inl ⟨h1, h2⟩)
        · exact .inr (.inr ⟨q', h1, h2, h3, hlate (j + 1) h4, h5⟩)
    rcases hcase with ⟨hr, hs, hnf⟩ | ⟨hr, hlt, hnf, hsent⟩ | ⟨hi2, hr, hs⟩ | ⟨rfl, hr, hs⟩
    · have hnf0 := hw0 (Pause.received ⟨q.before, q.during⟩ w h.sn.toU8.toNat) hnf
      refine hnext i (by omega) hr (fun _ => hnf0) (Nat.le_refl _) ?_
      exact ih hi ht0 hs hq' (List.pairwise_cons.2 ⟨fun b hb => hc1 b (List.mem_cons_of_mem _ hb), (List.pairwise_cons.1 hc2).2⟩) hst'
    · have hnf0 := hw0 (Pause.received ⟨q.before, q.during⟩ w h.sn.toU8.toNat) hnf
      refine ⟨0, Nat.zero_le _, (by intro r hr; cases hr), .inr (.inr ⟨q, rfl, ?_, by omega, ?_, hsent⟩)⟩
      · show some (poll (fuel + 2) q (w, c)).1 = _
        rw [hr]
      · intro m hm
        have : m = 0 := by omega
        subst this
        rw [hall]
        exact hnf0
    · refine hnext (i + 1) (Nat.le_refl _) hr (fun h => absurd h (by omega)) (by omega) ?_
      exact ih (by omega) (by omega) hs hq' hc2 hst'
    · exact ⟨0, Nat.zero_le _, (by intro r hr; cases hr), .inr (.inl ⟨by show some (poll (fuel + 2) q (w, c)).1 = _; rw [hr], hs⟩)⟩

/-- **C117.** An MQTT client over TLS gets its CONNACK however the records of the server arrive and whenever `process` is called.  The
client is connected at the time `t0` and sends its ClientHello; then `process` is called any number of times, at times that do not go
backwards, while the environment does anything that does not interrupt the connection.  Everything received is a beginning of what the
server sends: the records of its handshake, a record with a CONNACK that accepts the connection and the bytes `rest`, then anything.
Then the calls `0, …, j - 1` ask for another call within ten seconds, and

* all calls did so; then the records had not all arrived four calls before the end, and the client has sent nothing more than its Finished
  and its CONNECT, and these only together; or
* call `j` reports the CONNACK; the client has sent exactly its Finished and its CONNECT, and the connection is as the session theorem
  `C111_session_partial` asks for, with `rest` as the unread data; or
* call `j` reports a timeout; it is more than ten seconds after `t0`, and the records had not all arrived four calls before.

(Release build.) -/
theorem C117_connects (hx : x.Standard) (fuel : Nat) (rng : Rng x) (hr : rng.Ok) (t0 : UInt32) (w : World)
    (c : Client x) (p : Nat) (hc : Tls.Connecting w c.tls p) (hi : Tls.Connects w c.tls) (a : Answer) (pub : x.Public)
    (ha : Tls.Honest x a pub c.tls.rx.n) (hid : ∀ i, c.clientId = some i → i.length ≤ 23)
    (sp : UInt8) (props rest : Bytes) (hprops : props.length < 125) (hfit : (Spec.Mqtt.connack sp 0 props ++ rest).length + 39 ≤ c.tls.rx.n)
    (qs : List (Poll x)) (hq : ∀ q ∈ qs, q.quiet c.tls.sn.toU8.toNat) (hclock : Clock t0 (qs.map (·.secs))) (more : Bytes)
    (hroom : 314 + c.tls.hostname.length + c.tls.identity.length + c.connectPacket.length ≤ w.chip.txFsr c.tls.sn.toU8.toNat) :
    let ch := (c.tls.offer rng).hello
    let dhe := x.dh rng.secret pub
    let messages := [ch, a.sh, a.ee, a.fin c.tls.psk dhe ch]
    let clientApp := Spec.Tls.clientAppTraffic c.tls.psk dhe messages
    let serverApp := Spec.Tls.serverAppTraffic c.tls.psk dhe messages
    let stream := a.flight c.tls.psk dhe ch ++ Spec.Tls.protect serverApp 0 23 (Spec.Mqtt.connack sp 0 props ++ rest)
    let r0 := process false (fuel + 2) worldBus rng t0 (w, c)
    let rs := (polls (fuel + 2) qs r0.2).1
    let after := fun n => (polls (fuel + 2) (qs.take n) r0.2).2
    let arrived := fun n => ((after n).1.chip.received c.tls.sn.toU8.toNat).drop p
    let sent := fun n => (after n).1.chip.sent.map (·.payload)
    let hello := w.chip.sent.map (·.payload) ++ [(c.tls.offer rng).record]
    let all := hello ++ [a.reply c.tls.psk dhe ch, Spec.Tls.protect clientApp 0 23 c.connectPacket]
    (∀ n, n ≤ qs.length → arrived n <+: stream ++ more) →
    r0.1 = .ok (.callAfter 10) ∧ sent 0 = hello ∧
    ∃ j, j ≤ qs.length ∧ (∀ r ∈ rs.take j, AsksAgain r) ∧
      ((j = qs.length ∧ (∀ m, m + 4 ≤ j → ¬ stream <+: arrived m) ∧ (sent j = hello ∨ sent j = all)) ∨
      (rs[j]? = some (.ok .connAck) ∧ sent (j + 1) = all ∧
        (after (j + 1)).2 = { c with tls := (after (j + 1)).2.tls, state := .ready, timeout := none } ∧
        Tls.Ready (after (j + 1)).1 (after (j + 1)).2.tls serverApp (p + stream.length) rest ∧
        (after (j + 1)).2.tls.ks.clientTraffic = some clientApp ∧ (after (j + 1)).2.tls.timeout = none ∧
        (after (j + 1)).2.tls.ks.readSeq = 1 ∧ (after (j + 1)).2.tls.ks.writeSeq = 1 ∧ (after (j + 1)).2.tls.sn = c.tls.sn ∧
        (after (j + 1)).2.tls.rx.n = c.tls.rx.n ∧
        Spec.Mqtt.quiet (Spec.Mqtt.interrupts (after (j + 1)).1.chip c.tls.sn.toU8.toNat) = true) ∨
      (∃ q, qs[j]? = some q ∧ rs[j]? = some (.error (.err (.mqtt (.stateTimeout .waitConAck)))) ∧ t0.toNat + 10 < q.secs.toNat ∧
        (∀ m, m + 4 ≤ j + 1 → ¬ stream <+: arrived m) ∧ (sent (j + 1) = hello ∨ sent (j + 1) = all))) := by
  intro ch dhe messages clientApp' serverApp stream r0 rs after arrived sent hello all hst
  have hfit' := hc.fits
  have hsize := hc.size
  obtain ⟨w0, tls0, e0, k0, p0, o0, s0, to0, f0⟩ := Tls.process_offer hx false (fuel + 2) rng hr t0 hc.rx hc.tx hc.size hc.host hc.fresh hc.fits hc.free
    ⟨hi.con, hi.discon, hi.timeout⟩ hi.calm hi.still (by have := hc.none; show (w.chip.received c.tls.sn.toU8.toNat).length < _; omega)
  rw [Tls.helloArgs_offer c.tls rng ⟨by omega, by omega⟩] at o0 s0
  have hr0 : r0 = (.ok (.callAfter 10), (w0, { c with tls := tls0 })) := process_eq false (fuel + 2) worldBus rng t0 e0
  let h : Shake x := ⟨c.tls.psk, rng.secret, ch, a, pub, p, c.tls.sn, c.tls.rx.n⟩
  have hr02 : r0.2 = (w0, { c with tls := tls0 }) := by rw [hr0]
  refine ⟨by rw [hr0], by show r0.2.1.chip.sent.map _ = _; rw [hr02]; exact s0, ?_⟩
  have hj0 : Joining h c 0 t0 (w.chip.txFsr c.tls.sn.toU8.toNat - (234 + c.tls.hostname.length + c.tls.identity.length)) hello w0 { c with tls := tls0 } := by
    unfold Joining
    rw [if_pos (by omega)]
    exact ⟨rfl, o0, to0, k0.sn, k0.n, p0, by
      show _ ≤ w0.chip.txFsr c.tls.sn.toU8.toNat
      have : w.chip.txFsr c.tls.sn.toU8.toNat ≤ w0.chip.txFsr c.tls.sn.toU8.toNat + _ := f0
      omega, s0⟩
  have key := join_polls hx fuel h c ha ⟨by show 79 ≤ c.tls.rx.n; omega, by show c.tls.rx.n ≤ 32768; omega⟩ hid t0
    (by show 80 + c.connectPacket.length ≤ w.chip.txFsr c.tls.sn.toU8.toNat - (234 + c.tls.hostname.length + c.tls.identity.length); omega)
    sp props rest hprops hfit more qs (i := 0) (by omega) (Nat.le_refl _) hj0 hq hclock
    (by intro n hn; have := hst n hn; show ((polls (fuel + 2) (qs.take n) (w0, { c with tls := tls0 })).2.1.chip.received _).drop _ <+: _; rw [← hr02]; exact this)
  unfold JoinEnd at key
  rw [← hr02] at key
  obtain ⟨j, hj, hl, hcases⟩ := key
  refine ⟨j, hj, hl, ?_⟩
  rcases hcases with ⟨h1, h2, h3⟩ | ⟨h1, h2⟩ | h3
  · exact .inl ⟨h1, h2, h3⟩
  · refine .inr (.inl ⟨h1, h2.tls.sent, h2.same, h2.tls.ready, h2.tls.client, h2.tls.timeout, ?_, h2.tls.writeSeq, h2.tls.sn, h2.tls.n, h2.tls.peace.now⟩)
    exact UInt64.toNat_inj.mp h2.tls.readSeq
  · exact .inr (.inr h3)

/-! ## An instance -/

/-- A call when the records have arrived, and nothing arrives during the call. -/
theorem still_join (hx : x.Standard) (fuel : Nat) (h : Shake x) (c0 : Client x) (ha : Tls.Honest x h.a h.pub h.n) (hn : 79 ≤ h.n ∧ h.n ≤ 32768)
    (hid : ∀ i, c0.clientId = some i → i.length ≤ 23) {F : Nat}
    (hF : 80 + (Spec.Mqtt.connect 900 (h.n - 22) (c0.clientId.getD [])).length ≤ F) {sent : List Bytes}
    (sp : UInt8) (props rest : Bytes) (hprops : props.length < 125)
    (hD1 : (Spec.Mqtt.connack sp 0 props ++ rest).length + 39 ≤ h.n)
    {i : Nat} (hi : i ≤ 3) {t : UInt32} {w : World} {c : Client x} (g : Joining h c0 i t F sent w c) (q : Poll x)
    (hq : q.quiet h.sn.toU8.toNat) (ht : t.toNat ≤ q.secs.toNat) (hd : q.during = [])
    (hfl : ((w.pause q.before q.during).chip.received h.sn.toU8.toNat).drop h.p =
      h.flight ++ brokerRecord h (Spec.Mqtt.connack sp 0 props ++ rest)) :
    let r := poll (fuel + 2) q (w, c)
    (r.2.1.chip.received h.sn.toU8.toNat).drop h.p = h.flight ++ brokerRecord h (Spec.Mqtt.connack sp 0 props ++ rest) ∧
    (i < 3 → AsksAgain r.1 ∧ Joining h c0 (i + 1) q.secs F sent r.2.1 r.2.2) ∧ (i = 3 → r.1 = .ok .connAck) := by
  intro r
  have hg := g.pause ⟨q.before, q.during⟩ hq
  have ho : Tls.Onward h.sn.toU8.toNat ((Pause.mk q.before q.during).after w) r.2.1 := by
    refine Tls.Onward.trans ?_ (process_received h.sn.toU8.toNat (fuel + 2) q.rng q.secs ((Pause.mk q.before q.during).after w) c)
    unfold Joining at hg
    by_cases hi2 : i ≤ 2
    · rw [if_pos hi2] at hg
      have := Tls.waits_onward (fuel + 2) q.rng q.secs (hg.2.stage.waits hi2) (by rw [hg.2.sn]; exact hg.2.peace)
      rw [hg.2.sn] at this
      exact this
    · rw [if_neg hi2] at hg
      have := Tls.process_onward false (fuel + 2) q.rng q.secs hg.2.ready (by rw [hg.2.sn]; exact hg.2.peace)
      rw [hg.2.sn] at this
      exact this
  have hrec : (r.2.1.chip.received h.sn.toU8.toNat).drop h.p = h.flight ++ brokerRecord h (Spec.Mqtt.connack sp 0 props ++ rest) := by
    rw [← hfl]
    exact congrArg _ (ho.still (by intro es he; rw [show ((Pause.mk q.before q.during).after w).sched = q.during from rfl, hd] at he; cases he)).2
  have hcase := join_cases hx fuel q.rng q.secs h c0 ha hn hid hi hF hg ht sp props rest hprops hD1 [] (by
    show (r.2.1.chip.received h.sn.toU8.toNat).drop h.p <+: _
    rw [hrec, List.append_nil])
  have hnf : h.flight ++ brokerRecord h (Spec.Mqtt.connack sp 0 props ++ rest) <+:
      (((Pause.mk q.before q.during).after w).chip.received h.sn.toU8.toNat).drop h.p := by
    rw [show (Pause.mk q.before q.during).after w = w.pause q.before q.during from rfl, hfl]
  rcases hcase.2 with ⟨_, _, h3⟩ | ⟨_, _, h3, _⟩ | ⟨h2, hr, hs⟩ | ⟨h2, hr, _⟩
  · exact absurd hnf h3
  · exact absurd hnf h3
  · exact ⟨hrec, fun _ => ⟨hr, hs⟩, fun h => absurd h (by omega)⟩
  · exact ⟨hrec, fun h => absurd h2 (by omega), fun _ => hr⟩

namespace Witness
open Tls.Witness

/-- An MQTT client whose TLS client is that of the example of C89. -/
def joining : Client X := ⟨c1, some [109], .init, none, 1⟩

/-- What the server sends: its handshake, and CONNACK with a byte of properties, followed by `rest`. -/
def joinStream (rest : Bytes) : Bytes :=
  answer.flight c1.psk (X.dh rng.secret ()) (c1.offer rng).hello ++
    Spec.Tls.protect (Spec.Tls.serverAppTraffic c1.psk (X.dh rng.secret ()) [(c1.offer rng).hello, answer.sh, answer.ee,
      answer.fin c1.psk (X.dh rng.secret ()) (c1.offer rng).hello]) 0 23 (Spec.Mqtt.connack 0 0 [7] ++ rest)

theorem joinStream_length (rest : Bytes) (hrest : rest.length ≤ 300) : (joinStream rest).length ≤ 2048 := by
  have h1 : ∀ psk dhe ch, (answer.flight psk dhe ch).length ≤ 1500 := by
    intro psk dhe ch
    unfold Answer.flight Answer.record2 Answer.record3 Answer.record1 Answer.fin Spec.Tls.serverFinished
    rw [List.length_append, List.length_append, Tls.protect_length, Tls.protect_length]
    show _ + (_ + 22) + ((Spec.Tls.verifyData _ _).length + 4 + 22) ≤ _
    rw [Tls.verifyData_length]
    decide +kernel
  have h2 : (Spec.Mqtt.connack 0 0 [7] ++ rest).length ≤ 400 := by rw [Thm.connack_small _ _ _ (by decide)]; simp; omega
  have := h1 c1.psk (X.dh rng.secret ()) (c1.offer rng).hello
  unfold joinStream
  rw [List.length_append, Tls.protect_length]
  omega

/-- Everything arrives before the first call. -/
def joinCalls (rest : Bytes) : List (Poll X) := [⟨[.arrive 3 (joinStream rest)], rng, 3, []⟩, ⟨[], rng, 4, []⟩, ⟨[], rng, 4, []⟩, ⟨[], rng, 9, []⟩]

theorem joinCalls_quiet (rest : Bytes) : ∀ q ∈ joinCalls rest, q.quiet c1.sn.toU8.toNat := by
  intro q hq es he bits hb
  simp only [joinCalls, List.mem_cons, List.not_mem_nil, or_false] at hq
  rcases hq with rfl | rfl | rfl | rfl <;> simp only [List.mem_cons, List.not_mem_nil, or_false] at he <;> subst he <;> simp at hb

theorem join_fits (rest : Bytes) (hrest : rest.length ≤ 300) : (Spec.Mqtt.connack 0 0 [7] ++ rest).length + 39 ≤ joining.tls.rx.n := by
  have : joining.tls.rx.n = 1024 := by decide +kernel
  rw [Thm.connack_small _ _ _ (by decide), this]
  simp
  omega

/-- The first three calls ask for another call, and the fourth reports the CONNACK. -/
theorem joined (rest : Bytes) (hrest : rest.length ≤ 300) : let r0 := process false (1 + 2) worldBus rng 0 (Thm.tcpWorld 1 [], joining)
    (∀ n, n ≤ (joinCalls rest).length → ((polls (1 + 2) ((joinCalls rest).take n) r0.2).2.1.chip.received joining.tls.sn.toU8.toNat).drop 0 <+: joinStream rest) ∧
    ((polls (1 + 2) (joinCalls rest) r0.2).2.1.chip.received joining.tls.sn.toU8.toNat).drop 0 = joinStream rest ∧
    ∃ r1 r2 r3 r4, (polls (1 + 2) (joinCalls rest) r0.2).1 = [r1, r2, r3, r4] ∧ AsksAgain r1 ∧ AsksAgain r2 ∧ AsksAgain r3 ∧ r4 = .ok .connAck := by
  have hlen : (Spec.Mqtt.connack 0 0 [7] ++ rest).length + 39 ≤ joining.tls.rx.n := join_fits rest hrest
  intro r0
  have hc : ∀ n, n = 3 → let ch := (Tls.process false n worldBus rng 0 (Thm.tcpWorld 1 [], c1)).2.1.chip
      ch.rxSize 3 = 2048 ∧ ch.rxRsr 3 = 0 ∧ ch.received 3 = [] ∧ 58 ≤ ch.txFsr 3 := by rintro _ rfl; exact offered_chip
  have hc := hc (1 + 2) rfl
  dsimp only at hc
  obtain ⟨w', c', h, k, pe, o, s, ht, f⟩ := Tls.process_offer standard false (1 + 2) rng rng_ok 0 connecting.rx connecting.tx connecting.size connecting.host
    connecting.fresh connecting.fits connecting.free ⟨Tls.Witness.connects.con, Tls.Witness.connects.discon, Tls.Witness.connects.timeout⟩ Tls.Witness.connects.calm Tls.Witness.connects.still (by decide)
  rw [Tls.helloArgs_offer c1 rng ⟨by decide +kernel, by decide +kernel⟩] at o s
  have hr : r0.2 = (w', { joining with tls := c' }) := congrArg Prod.snd (process_eq false (1 + 2) worldBus rng 0 (c := joining) h)
  rw [h] at hc
  rw [hr]
  obtain ⟨h1, h2, h3, h4⟩ := hc
  let sk : Shake X := ⟨c1.psk, rng.secret, (c1.offer rng).hello, answer, (), 0, c1.sn, c1.rx.n⟩
  have hfree : w'.chip.txFsr 3 = w'.chip.txFsr sk.sn.toU8.toNat := rfl
  have hbig : 400 ≤ (Thm.tcpWorld 1 []).chip.txFsr 3 - (234 + c1.hostname.length + c1.identity.length) := by decide +kernel
  have g0 : Joining sk joining 0 0 400 (w'.chip.sent.map (·.payload)) w' { joining with tls := c' } := by
    unfold Joining
    rw [if_pos (by omega)]
    exact ⟨rfl, o, ht, k.sn, k.n, pe, by
      rw [← hfree]
      have : (Thm.tcpWorld 1 []).chip.txFsr 3 ≤ w'.chip.txFsr 3 + _ := f
      omega, rfl⟩
  have hfirst : ((w'.pause [.arrive 3 (joinStream rest)] []).chip.received sk.sn.toU8.toNat).drop sk.p =
      sk.flight ++ brokerRecord sk (Spec.Mqtt.connack 0 0 [7] ++ rest) := by
    rw [show sk.p = 0 from rfl, List.drop_zero, show sk.sn.toU8.toNat = 3 from rfl]
    have ha := arrives w' (joinStream rest) (joinStream_length rest hrest) h1 h2 h3
    rw [← Tls.pause_eq] at ha
    exact ha
  have hcid : ∀ i, joining.clientId = some i → i.length ≤ 23 := by intro i h; cases h; decide
  have hF : 80 + (Spec.Mqtt.connect 900 (sk.n - 22) (joining.clientId.getD [])).length ≤ 400 := by decide +kernel
  have step := fun {i} (hi : i ≤ 3) {t} {w} {c} g q hq ht hd hfl => still_join standard 1 sk joining honest ⟨by decide +kernel, by decide +kernel⟩ hcid hF
    (sent := w'.chip.sent.map (·.payload)) 0 [7] rest (by decide) hlen (i := i) hi (t := t) (w := w) (c := c) g q hq ht hd hfl
  obtain ⟨f1, g1, -⟩ := step (by omega) g0 ⟨[.arrive 3 (joinStream rest)], rng, 3, []⟩ (joinCalls_quiet rest _ (by simp [joinCalls])) (by dsimp only; decide) rfl hfirst
  obtain ⟨f2, g2, -⟩ := step (by omega) (g1 (by omega)).2 ⟨[], rng, 4, []⟩ (joinCalls_quiet rest _ (by simp [joinCalls])) (by dsimp only; decide) rfl f1
  obtain ⟨f3, g3, -⟩ := step (by omega) (g2 (by omega)).2 ⟨[], rng, 4, []⟩ (joinCalls_quiet rest _ (by simp [joinCalls])) (by dsimp only; decide) rfl f2
  obtain ⟨f4, -, g4⟩ := step (by omega) (g3 (by omega)).2 ⟨[], rng, 9, []⟩ (joinCalls_quiet rest _ (by simp [joinCalls])) (by dsimp only; decide) rfl f3
  refine ⟨?_, f4, _, _, _, _, rfl, (g1 (by omega)).1, (g2 (by omega)).1, (g3 (by omega)).1, g4 rfl⟩
  intro n hn
  match n, hn with
  | 0, _ => show ((w'.chip.received 3).drop 0) <+: _; rw [h3]; exact List.nil_prefix
  | 1, _ => exact f1 ▸ List.prefix_rfl
  | 2, _ => exact f2 ▸ List.prefix_rfl
  | 3, _ => exact f3 ▸ List.prefix_rfl
  | 4, _ => exact f4 ▸ List.prefix_rfl
  | m + 5, hm => exact absurd hm (by simp [joinCalls])

/-- Non-vacuity of `C117_connects`: all hypotheses are met, and (`joined`) the CONNACK is reported by the fourth call. -/
example : X.Standard ∧ rng.Ok ∧ Tls.Connecting (Thm.tcpWorld 1 []) joining.tls 0 ∧ Tls.Connects (Thm.tcpWorld 1 []) joining.tls ∧
    Tls.Honest X answer () joining.tls.rx.n ∧ (∀ i, joining.clientId = some i → i.length ≤ 23) ∧
    (Spec.Mqtt.connack 0 0 [7] ++ [0x30]).length + 39 ≤ joining.tls.rx.n ∧
    (∀ q ∈ joinCalls [0x30], q.quiet joining.tls.sn.toU8.toNat) ∧ Clock 0 ((joinCalls [0x30]).map (·.secs)) ∧
    314 + joining.tls.hostname.length + joining.tls.identity.length + joining.connectPacket.length ≤
      (Thm.tcpWorld 1 []).chip.txFsr joining.tls.sn.toU8.toNat ∧
    let r0 := process false (1 + 2) worldBus rng 0 (Thm.tcpWorld 1 [], joining)
    ∀ n, n ≤ (joinCalls [0x30]).length →
      ((polls (1 + 2) ((joinCalls [0x30]).take n) r0.2).2.1.chip.received joining.tls.sn.toU8.toNat).drop 0 <+: joinStream [0x30] ++ [1, 2, 3] := by
  refine ⟨standard, rng_ok, connecting, Tls.Witness.connects, honest, (by intro i h; cases h; decide), join_fits _ (by decide), joinCalls_quiet _, by unfold Clock; decide, by decide +kernel, ?_⟩
  exact fun n hn => ((joined [0x30] (by decide)).1 n hn).trans (List.prefix_append _ _)

end Witness

end Verif.MqttTls
