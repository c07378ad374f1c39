import Verif.Proof.TlsShaking
import Verif.Proof.TlsGrows
import Verif.Spec.TlsPolls
/-!
# C116: a handshake is completed however the records of the server arrive
-/
namespace Verif.Tls
open Verif Hl
open _root_.Verif.Spec (World worldBus TxState RxState Queue Chip Mem HsMsg EnvStep)
open _root_.Verif.Spec.Tls (Answer)
open _root_.Verif.Spec.TlsPolls

variable {x : Crypto}

theorem pause_eq (w : World) (es : List EnvStep) (s : List (List EnvStep)) : w.pause es s = (Pause.mk es s).after w := rfl

/-- How the calls `qs` from `s` end when `i` records have been handled. -/
def ShakeEnd (h : Shake x) (fuel : Nat) (i : Nat) (t0 : UInt32) (F : Nat) (sent : List Bytes) (qs : List (Poll x)) (s : World × Client x) : Prop :=
  let rs := (polls fuel qs s).1
  let after := fun n => (polls fuel (qs.take n) s).2
  let late := fun j => ∀ m, m + (3 - i) ≤ j → ¬ h.flight <+: ((after m).1.chip.received h.sn.toU8.toNat).drop h.p
  ∃ j, j ≤ qs.length ∧ (∀ r ∈ rs.take j, AsksAgain r) ∧
    ((j = qs.length ∧ late j ∧ (after j).1.chip.sent.map (·.payload) = sent) ∨
    (rs[j]? = some (.ok .handshakeFinished) ∧ Shaken h F sent (after (j + 1)).1 (after (j + 1)).2) ∨
    (∃ q st, qs[j]? = some q ∧ rs[j]? = some (.error (.err (.stateTimeout st))) ∧ t0.toNat + 10 < q.secs.toNat ∧ late (j + 1) ∧
      (after (j + 1)).1.chip.sent.map (·.payload) = sent))

theorem later_waits {t secs : UInt32} : AsksAgain (.ok (.callAfter (UInt32.ofNat (10 - (secs.toNat - t.toNat))))) :=
  ⟨_, rfl, by rw [UInt32.toNat_ofNat']; have : 10 - (secs.toNat - t.toNat) ≤ 10 := Nat.sub_le _ _; have := Nat.mod_le (10 - (secs.toNat - t.toNat)) (2 ^ 32); omega⟩

theorem shake_polls (hx : x.Standard) (fuel : Nat) (h : Shake x) (ha : Honest x h.a h.pub h.n) (hn : 79 ≤ h.n ∧ h.n ≤ 32768) (t0 : UInt32) {F : Nat}
    (hF : 58 ≤ F) {sent : List Bytes} (more : Bytes) (qs : List (Poll x)) : ∀ {i : Nat} (_ : i ≤ 2) {t : UInt32} {w : World} {c : Client x}
    (_ : t0.toNat ≤ t.toNat) (_ : Shaking h i t F sent w c) (_ : ∀ q ∈ qs, q.quiet h.sn.toU8.toNat) (_ : Clock t (qs.map (·.secs)))
    (_ : ∀ n, n ≤ qs.length → ((polls (fuel + 2) (qs.take n) (w, c)).2.1.chip.received h.sn.toU8.toNat).drop h.p <+: h.flight ++ more),
    ShakeEnd h (fuel + 2) i t0 F sent qs (w, c) := by
  induction qs with
  | nil =>
    intro i hi t w c _ g _ _ _
    refine ⟨0, Nat.le_refl _, (by intro r hr; cases hr), .inl ⟨rfl, ?_, g.sent⟩⟩
    intro m hm
    omega
  | cons q qs ih =>
    intro i hi t w c ht0 g hq hc hst
    obtain ⟨hc1, hc2⟩ := List.pairwise_cons.1 hc
    have htq : t.toNat ≤ q.secs.toNat := hc1 _ List.mem_cons_self
    have hg := g.pause hi ⟨q.before, q.during⟩ (hq q List.mem_cons_self)
    have hst1 := hst 1 (by rw [List.length_cons]; omega)
    have hcase := shake_cases hx fuel q.rng q.secs h ha hn hi hF hg htq more hst1
    dsimp only at hcase
    rw [show process false (fuel + 2) worldBus q.rng q.secs ((Pause.mk q.before q.during).after w, c) = poll (fuel + 2) q (w, c) from rfl] at hcase
    obtain ⟨hpre, hcase⟩ := hcase
    have hpre0 : w.chip.received h.sn.toU8.toNat <+: (poll (fuel + 2) q (w, c)).2.1.chip.received h.sn.toU8.toNat :=
      (Pause.received _ w _).trans hpre
    have hst' : ∀ n, n ≤ qs.length →
        ((polls (fuel + 2) (qs.take n) (poll (fuel + 2) q (w, c)).2).2.1.chip.received h.sn.toU8.toNat).drop h.p <+: h.flight ++ more :=
      fun n hn => hst (n + 1) (by rw [List.length_cons]; omega)
    have hq' : ∀ q ∈ qs, q.quiet h.sn.toU8.toNat := fun q' h' => hq q' (List.mem_cons_of_mem _ h')
    have hw0 : ∀ {l l' : Bytes}, l <+: l' → ¬ h.flight <+: l'.drop h.p → ¬ h.flight <+: l.drop h.p :=
      fun hl hn hf => hn (hf.trans (_root_.Verif.prefix_drop hl _))
    -- the first call asks for another; the others end as `k` says
    have hnext : ∀ i', i' ≤ i + 1 → AsksAgain (poll (fuel + 2) q (w, c)).1 →
        (i' = i → ¬ h.flight <+: (w.chip.received h.sn.toU8.toNat).drop h.p) → i ≤ i' →
        ShakeEnd h (fuel + 2) i' t0 F sent qs (poll (fuel + 2) q (w, c)).2 → ShakeEnd h (fuel + 2) i t0 F sent (q :: qs) (w, c) := by
      intro i' hi1 hl hwait hi2 ⟨j, hj, hr, hcases⟩
      have hlate : ∀ J, (∀ m, m + (3 - i') ≤ J → ¬ h.flight <+:
            ((polls (fuel + 2) (qs.take m) (poll (fuel + 2) q (w, c)).2).2.1.chip.received h.sn.toU8.toNat).drop h.p) →
          ∀ m, m + (3 - i) ≤ J + 1 → ¬ h.flight <+:
            ((polls (fuel + 2) ((q :: qs).take m) (w, c)).2.1.chip.received h.sn.toU8.toNat).drop h.p := by
        intro J hl m hm
        match m with
        | m + 1 => exact hl m (by omega)
        | 0 =>
          by_cases he : i' = i
          · exact hwait he
          · exact hw0 hpre0 (hl 0 (by omega))
      refine ⟨j + 1, by rw [List.length_cons]; omega, ?_, ?_⟩
      · intro r hr'
        rcases List.mem_cons.1 (show r ∈ (poll (fuel + 2) q (w, c)).1 :: ((polls (fuel + 2) qs (poll (fuel + 2) q (w, c)).2).1.take j) from hr') with rfl | h'
        · exact hl
        · exact hr r h'
      · rcases hcases with ⟨h1, h2, h3⟩ | ⟨h1, h2⟩ | ⟨q', st, h1, h2, h3, h4, h5⟩
        · exact .inl ⟨by rw [List.length_cons, h1], hlate j h2, h3⟩
        · exact .inr (.inl ⟨h1, h2⟩)
        · exact .inr (.inr ⟨q', st, h1, h2, h3, hlate (j + 1) h4, h5⟩)
    rcases hcase with ⟨res, c', he, hwt, hsh, hnf, hsent⟩ | ⟨hi2, hr, hs⟩ | ⟨rfl, hr, hs⟩
    · have hnf0 := hw0 (Pause.received ⟨q.before, q.during⟩ w h.sn.toU8.toNat) hnf
      unfold WaitsOrGivesUp at hwt
      rw [g.timeout] at hwt
      dsimp only at hwt
      split at hwt
      · obtain ⟨rfl, rfl⟩ := hwt
        refine hnext i (by omega) (by rw [he]; exact later_waits) (fun _ => hnf0) (Nat.le_refl _) ?_
        have hk := ih hi (w := (poll (fuel + 2) q (w, c')).2.1) (c := c') ht0 (hsh rfl) hq'
          (List.pairwise_cons.2 ⟨fun b hb => hc1 b (List.mem_cons_of_mem _ hb), (List.pairwise_cons.1 hc2).2⟩)
        rw [show ((poll (fuel + 2) q (w, c')).2.1, c') = (poll (fuel + 2) q (w, c')).2 by rw [he]] at hk
        exact hk hst'
      · rename_i hlt
        refine ⟨0, Nat.zero_le _, (by intro r hr; cases hr), .inr (.inr ⟨q, c.state, rfl, ?_, by omega, ?_, hsent⟩)⟩
        · show some (poll (fuel + 2) q (w, c)).1 = _
          rw [he, hwt.1]
        · intro m hm
          have : m = 0 := by omega
          subst this
          exact hnf0
    · refine hnext (i + 1) (Nat.le_refl _) ⟨10, hr, by decide⟩ (fun h => absurd h (by omega)) (by omega) ?_
      exact ih (by omega) (by omega) hs hq' hc2 hst'
    · exact ⟨0, Nat.zero_le _, (by intro r hr; cases hr), .inr (.inl ⟨by show some (poll (fuel + 2) q (w, c)).1 = _; rw [hr], hs⟩)⟩

/-- **C116.** A handshake with an honest server is completed however the server's records arrive and whenever `process` is called.  The
client is connected at the time `t0` and sends its ClientHello; then `process` is called any number of times, at times that do not go
backwards.  Before and during the calls the environment does anything that does not interrupt the connection: the stream of the socket is cut anywhere,
also within a record or its header, and pieces may arrive in the middle of a call.  Everything received from the beginning is a
beginning of what the server sends: its records, then anything.  Then the calls `0, …, j - 1` ask for another call within ten seconds, and

* all calls did so; then the records of the server had not all arrived three calls before the end, and nothing more was sent; or
* call `j` finishes the handshake; the client has sent exactly its Finished, both sides have the same keys, and the client is ready to
  receive application data; or
* call `j` reports a timeout; it is more than ten seconds after `t0`, and the records had not all arrived three calls before.

(Release build.) -/
theorem C116_handshake_polls (hx : x.Standard) (fuel : Nat) (rng : Rng x) (hr : rng.Ok) (t0 : UInt32) (w : World)
    (c : Client x) (p : Nat) (hc : Connecting w c p) (hi : Connects w c) (a : Answer) (pub : x.Public) (ha : Honest x a pub c.rx.n)
    (qs : List (Poll x)) (hq : ∀ q ∈ qs, q.quiet c.sn.toU8.toNat) (hclock : Clock t0 (qs.map (·.secs))) (more : Bytes)
    (hroom : 292 + c.hostname.length + c.identity.length ≤ w.chip.txFsr c.sn.toU8.toNat) :
    let ch := (c.offer rng).hello
    let dhe := x.dh rng.secret pub
    let messages := [ch, a.sh, a.ee, a.fin c.psk dhe ch]
    let flight := a.flight c.psk dhe ch
    let r0 := process false (fuel + 2) worldBus rng t0 (w, c)
    let rs := (polls (fuel + 2) qs r0.2).1
    let after := fun n => (polls (fuel + 2) (qs.take n) r0.2).2
    let arrived := fun n => ((after n).1.chip.received c.sn.toU8.toNat).drop p
    let sent := fun n => (after n).1.chip.sent.map (·.payload)
    let before := w.chip.sent.map (·.payload)
    (∀ n, n ≤ qs.length → arrived n <+: flight ++ more) →
    r0.1 = .ok (.callAfter 10) ∧ sent 0 = before ++ [(c.offer rng).record] ∧
    ∃ j, j ≤ qs.length ∧ (∀ r ∈ rs.take j, AsksAgain r) ∧
      ((j = qs.length ∧ (∀ m, m + 3 ≤ j → ¬ flight <+: arrived m) ∧ sent j = before ++ [(c.offer rng).record]) ∨
      (rs[j]? = some (.ok .handshakeFinished) ∧ sent (j + 1) = before ++ [(c.offer rng).record, a.reply c.psk dhe ch] ∧
        (after (j + 1)).2.ks.clientTraffic = some (Spec.Tls.clientAppTraffic c.psk dhe messages) ∧ (after (j + 1)).2.ks.writeSeq = 0 ∧
        (after (j + 1)).2.ks.readSeq = 0 ∧ (after (j + 1)).2.sn = c.sn ∧ (after (j + 1)).2.rx.n = c.rx.n ∧
        (after (j + 1)).2.timeout = none ∧ Peace c.sn.toU8.toNat (after (j + 1)).1 ∧
        w.chip.txFsr c.sn.toU8.toNat ≤ (after (j + 1)).1.chip.txFsr c.sn.toU8.toNat + (292 + c.hostname.length + c.identity.length) ∧
        Ready (after (j + 1)).1 (after (j + 1)).2 (Spec.Tls.serverAppTraffic c.psk dhe messages) (p + flight.length) []) ∨
      (∃ q st, qs[j]? = some q ∧ rs[j]? = some (.error (.err (.stateTimeout st))) ∧ t0.toNat + 10 < q.secs.toNat ∧
        (∀ m, m + 3 ≤ j + 1 → ¬ flight <+: arrived m) ∧ sent (j + 1) = before ++ [(c.offer rng).record])) := by
  intro ch dhe messages flight r0 rs after arrived sent before hst
  have hfit := hc.fits
  have hsize := hc.size
  obtain ⟨w0, c0, e0, k0, p0, o0, s0, to0, f0⟩ := process_offer hx false (fuel + 2) rng hr t0 hc.rx hc.tx hc.size hc.host hc.fresh hc.fits hc.free
    ⟨hi.con, hi.discon, hi.timeout⟩ hi.calm hi.still (by have := hc.none; show (w.chip.received c.sn.toU8.toNat).length < _; omega)
  rw [helloArgs_offer c rng ⟨by omega, by omega⟩] at o0 s0
  have hr0 : r0 = (.ok (.callAfter 10), (w0, c0)) := e0
  let h : Shake x := ⟨c.psk, rng.secret, ch, a, pub, p, c.sn, c.rx.n⟩
  have hr02 : r0.2 = (w0, c0) := by rw [hr0]
  refine ⟨by rw [hr0], by show r0.2.1.chip.sent.map _ = _; rw [hr02]; exact s0, ?_⟩
  have key := shake_polls hx fuel h ha ⟨by show 79 ≤ c.rx.n; omega, by show c.rx.n ≤ 32768; omega⟩ t0
    (F := w.chip.txFsr c.sn.toU8.toNat - (234 + c.hostname.length + c.identity.length)) (by omega)
    (sent := before ++ [(c.offer rng).record]) more qs (i := 0) (by omega) (t := t0) (w := w0) (c := c0) (Nat.le_refl _)
    ⟨o0, to0, k0.sn, k0.n, p0, by show _ ≤ w0.chip.txFsr c.sn.toU8.toNat; have : w.chip.txFsr c.sn.toU8.toNat ≤ w0.chip.txFsr c.sn.toU8.toNat + _ := f0; omega, s0⟩ hq hclock
    (by intro n hn; have := hst n hn; show ((polls (fuel + 2) (qs.take n) (w0, c0)).2.1.chip.received _).drop _ <+: _; rw [← hr02]; exact this)
  unfold ShakeEnd at key
  rw [← hr02] at key
  obtain ⟨j, hj, hl, hcases⟩ := key
  refine ⟨j, hj, hl, ?_⟩
  rcases hcases with ⟨h1, h2, h3⟩ | ⟨h1, h2⟩ | h3
  · exact .inl ⟨h1, h2, h3⟩
  · refine .inr (.inl ⟨h1, ?_, h2.client, h2.writeSeq, h2.readSeq, h2.sn, h2.n, h2.timeout, h2.peace, ?_, h2.ready⟩)
    · exact h2.sent.trans (List.append_assoc _ _ _)
    · have := h2.room
      show _ ≤ (after (j + 1)).1.chip.txFsr c.sn.toU8.toNat + _
      have this : _ ≤ (after (j + 1)).1.chip.txFsr c.sn.toU8.toNat + 58 := this
      omega
  · exact .inr (.inr h3)

/-! ## An instance -/

theorem waits_onward {w : World} {c : Client x} {p : Nat} (fuel : Nat) (rng : Rng x) (secs : UInt32) (h : Waits w c p)
    (hpc : Peace c.sn.toU8.toNat w) : Onward c.sn.toU8.toNat w (process false fuel worldBus rng secs (w, c)).2.1 := by
  obtain ⟨base, hat⟩ := h.rx.at
  obtain ⟨w1, hs1, -, hproc⟩ := process_quiet false fuel rng secs c h.receives hat h.tx (Peace.quiet (c := c) hpc)
  rw [hproc]
  refine (show Onward c.sn.idx w w1 from ⟨hs1.pre, hs1.still⟩).trans ?_
  have h : Grows c.sn.idx (receiveRecords false fuel worldBus secs : X _ (World × Client x) _) := by
    refine Grows.getC.bind fun c => .ite (.checkTimeout _ _) ((Grows.orFatal _ (.onBus (.snRxRsr _))).bind fun _ => .ite ((Grows.recv _ _ _).bind fun ev => ?_) (.afterRecv _ _))
    cases ev with
    | some ev => exact Grows.pure _
    | none => exact Grows.afterRecv _ _
  exact h (w1, c)

namespace Witness

/-- A call when the records have arrived, and nothing arrives during the call. -/
theorem still_poll (hx : x.Standard) (fuel : Nat) (h : Shake x) (ha : Honest x h.a h.pub h.n) (hn : 79 ≤ h.n ∧ h.n ≤ 32768) {F : Nat} (hF : 58 ≤ F)
    {sent : List Bytes} {i : Nat} (hi : i ≤ 2) {t : UInt32} {w : World} {c : Client x} (g : Shaking h i t F sent w c) (q : Poll x)
    (hq : q.quiet h.sn.toU8.toNat) (ht : t.toNat ≤ q.secs.toNat) (hd : q.during = [])
    (hfl : ((w.pause q.before q.during).chip.received h.sn.toU8.toNat).drop h.p = h.flight) :
    let r := poll (fuel + 2) q (w, c)
    (r.2.1.chip.received h.sn.toU8.toNat).drop h.p = h.flight ∧ (i < 2 → Shaking h (i + 1) q.secs F sent r.2.1 r.2.2) := by
  intro r
  have hg := g.pause hi ⟨q.before, q.during⟩ hq
  have ho := waits_onward (fuel + 2) q.rng q.secs (hg.stage.waits hi) (by rw [hg.sn]; exact hg.peace)
  rw [hg.sn] at ho
  have hrec : (r.2.1.chip.received h.sn.toU8.toNat).drop h.p = h.flight := by
    rw [← hfl]
    exact congrArg _ (ho.still (by intro es he; rw [show ((Pause.mk q.before q.during).after w).sched = q.during from rfl, hd] at he; cases he)).2
  refine ⟨hrec, fun hi2 => ?_⟩
  have hcase := shake_cases hx fuel q.rng q.secs h ha hn hi hF hg ht [] (by
    show (r.2.1.chip.received h.sn.toU8.toNat).drop h.p <+: _
    rw [hrec, List.append_nil])
  rcases hcase.2 with ⟨_, _, _, _, _, hnf, _⟩ | ⟨_, _, hs⟩ | ⟨h2, _⟩
  · exact absurd (by rw [show (Pause.mk q.before q.during).after w = w.pause q.before q.during from rfl, hfl]) hnf
  · exact hs
  · omega

/-- The records arrive at once before the first call. -/
def calls : List (Poll X) := [⟨[.arrive 3 (answer.flight c1.psk (X.dh rng.secret ()) (c1.offer rng).hello)], rng, 3, []⟩, ⟨[], rng, 4, []⟩,
  ⟨[], rng, 4, []⟩]

theorem calls_quiet : ∀ q ∈ calls, q.quiet c1.sn.toU8.toNat := by
  intro q hq es he bits hb
  simp only [calls, List.mem_cons, List.not_mem_nil, or_false] at hq
  rcases hq with rfl | rfl | rfl <;> simp only [List.mem_cons, List.not_mem_nil, or_false] at he <;> subst he <;> simp at hb

/-- Non-vacuity of `C116_handshake_polls`: all hypotheses are met, and the handshake must be finished by the third call. -/
example : X.Standard ∧ rng.Ok ∧ Connecting (Thm.tcpWorld 1 []) c1 0 ∧ Connects (Thm.tcpWorld 1 []) c1 ∧ Honest X answer () c1.rx.n ∧
    (∀ q ∈ calls, q.quiet c1.sn.toU8.toNat) ∧ Clock 0 (calls.map (·.secs)) ∧
    292 + c1.hostname.length + c1.identity.length ≤ (Thm.tcpWorld 1 []).chip.txFsr c1.sn.toU8.toNat ∧
    let r0 := process false 3 worldBus rng 0 (Thm.tcpWorld 1 [], c1)
    ∀ n, n ≤ calls.length → ((polls 3 (calls.take n) r0.2).2.1.chip.received c1.sn.toU8.toNat).drop 0 <+:
      answer.flight c1.psk (X.dh rng.secret ()) (c1.offer rng).hello ++ [1, 2, 3] := by
  refine ⟨standard, rng_ok, connecting, connects, honest, calls_quiet, by unfold Clock; decide, by decide +kernel, ?_⟩
  intro r0 n hn
  have hc := offered_chip
  dsimp only at hc
  obtain ⟨w', c', h, k, pe, o, s, ht, f⟩ := process_offer standard false 3 rng rng_ok 0 connecting.rx connecting.tx connecting.size connecting.host
    connecting.fresh connecting.fits connecting.free ⟨connects.con, connects.discon, connects.timeout⟩ connects.calm connects.still (by decide)
  rw [helloArgs_offer c1 rng ⟨by decide +kernel, by decide +kernel⟩] at o s
  have hr : r0.2 = (w', c') := congrArg Prod.snd h
  rw [h] at hc
  rw [hr]
  obtain ⟨h1, h2, h3, h4⟩ := hc
  let sk : Shake X := ⟨c1.psk, rng.secret, (c1.offer rng).hello, answer, (), 0, c1.sn, c1.rx.n⟩
  have g0 : Shaking sk 0 0 58 (w'.chip.sent.map (·.payload)) w' c' := ⟨o, ht, k.sn, k.n, pe, h4, rfl⟩
  have hfirst : ((w'.pause [.arrive 3 (answer.flight c1.psk (X.dh rng.secret ()) (c1.offer rng).hello)] []).chip.received sk.sn.toU8.toNat).drop sk.p =
      sk.flight := by
    rw [show sk.p = 0 from rfl, List.drop_zero, show sk.sn.toU8.toNat = 3 from rfl]
    have ha := arrives w' (answer.flight c1.psk (X.dh rng.secret ()) (c1.offer rng).hello) (flight_length _ _ _) h1 h2 h3
    rw [← pause_eq] at ha
    exact ha
  obtain ⟨f1, g1⟩ := still_poll standard 1 sk honest ⟨by decide +kernel, by decide +kernel⟩ (Nat.le_refl _) (by omega) g0 calls[0] (calls_quiet _ (by simp [calls]))
    (by decide) rfl hfirst
  obtain ⟨f2, g2⟩ := still_poll standard 1 sk honest ⟨by decide +kernel, by decide +kernel⟩ (Nat.le_refl _) (by omega) (g1 (by omega)) calls[1] (calls_quiet _ (by simp [calls]))
    (by decide) rfl f1
  obtain ⟨f3, -⟩ := still_poll standard 1 sk honest ⟨by decide +kernel, by decide +kernel⟩ (Nat.le_refl _) (by omega) (g2 (by omega)) calls[2] (calls_quiet _ (by simp [calls]))
    (by decide) rfl f2
  have hfl : ∀ l : Bytes, l = sk.flight → l <+: answer.flight c1.psk (X.dh rng.secret ()) (c1.offer rng).hello ++ [1, 2, 3] := by
    rintro l rfl
    exact List.prefix_append _ _
  match n, hn with
  | 0, _ => show ((w'.chip.received 3).drop 0) <+: _; rw [h3]; exact List.nil_prefix
  | 1, _ => exact hfl _ f1
  | 2, _ => exact hfl _ f2
  | 3, _ => exact hfl _ f3
  | m + 4, hm => exact absurd hm (by simp [calls])

end Witness

end Verif.Tls
