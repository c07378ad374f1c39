import Verif.Proof.TlsArrive
import Verif.Thm.TlsComplete
/-!
# One call during a handshake with an honest server
-/
namespace Verif.Tls
open Verif Hl
open _root_.Verif.Spec (World worldBus TxState RxState Queue Chip Mem HsMsg EnvStep)
open _root_.Verif.Spec.Tls (Answer)

variable {x : Crypto}

/-- A handshake: the client offers `ch` with the secret `s`, the server answers `a` with the public key `pub`; its records begin at byte `p`
of the stream of socket `sn`, and the client has a buffer of `n` bytes. -/
structure Shake (x : Crypto) where
  psk : Bytes
  s : x.Secret
  ch : Bytes
  a : Answer
  pub : x.Public
  p : Nat
  sn : Sn
  n : Nat

namespace Shake
variable (h : Shake x)

def dhe : Bytes := x.dh h.s h.pub
/-- The record of the server that comes when `i` have come. -/
def record : Nat → Bytes
  | 0 => h.a.record1
  | 1 => h.a.record2 h.psk h.dhe h.ch
  | _ => h.a.record3 h.psk h.dhe h.ch
def before : Nat → Bytes
  | 0 => []
  | 1 => h.a.record1
  | _ => h.a.record1 ++ h.a.record2 h.psk h.dhe h.ch
def rest : Nat → Bytes
  | 0 => h.a.record2 h.psk h.dhe h.ch ++ h.a.record3 h.psk h.dhe h.ch
  | 1 => h.a.record3 h.psk h.dhe h.ch
  | _ => []
def flight : Bytes := h.a.flight h.psk h.dhe h.ch
def messages : List Bytes := [h.ch, h.a.sh, h.a.ee, h.a.fin h.psk h.dhe h.ch]

theorem flight_eq : ∀ i, i ≤ 2 → h.flight = h.before i ++ (h.record i ++ h.rest i)
  | 0, _ => by simp [flight, Answer.flight, before, record, rest]
  | 1, _ => by simp [flight, Answer.flight, before, record, rest]
  | 2, _ => by simp [flight, Answer.flight, before, record, rest]
  | _ + 3, h => absurd h (by omega)

/-- Where the client is when it has handled `i` records. -/
def Stage (w : World) (c : Client x) : Nat → Prop
  | 0 => Offered w c (h.p + (h.before 0).length) h.psk h.s h.ch
  | 1 => Keyed w c (h.p + (h.before 1).length) .waitEncryptedExtensions h.psk h.dhe [h.ch, h.a.sh] [h.ch, h.a.sh] 0
  | _ => Keyed w c (h.p + (h.before 2).length) .waitFinished h.psk h.dhe [h.ch, h.a.sh] [h.ch, h.a.sh, h.a.ee] 1

end Shake

theorem Waits.move {w w' : World} {c : Client x} {p : Nat} (h : Waits w c p) (hr : RxState w'.chip c.sn.toU8.toNat p)
    (ht : TxState w'.chip c.sn.toU8.toNat) : Waits w' c p := ⟨h.receives, h.size, h.empty, hr, ht⟩

theorem Offered.at {w w' : World} {c : Client x} {p : Nat} {psk : Bytes} {s : x.Secret} {ch : Bytes} (g : Offered w c p psk s ch)
    (hr : RxState w'.chip c.sn.toU8.toNat p) (ht : TxState w'.chip c.sn.toU8.toNat) : Offered w' c p psk s ch :=
  { g with waits := g.waits.move hr ht }

theorem Keyed.at {w w' : World} {c : Client x} {p : Nat} {st : TState} {psk dhe : Bytes} {upto sofar : List Bytes} {n : UInt64}
    (g : Keyed w c p st psk dhe upto sofar n)
    (hr : RxState w'.chip c.sn.toU8.toNat p) (ht : TxState w'.chip c.sn.toU8.toNat) : Keyed w' c p st psk dhe upto sofar n :=
  { g with waits := g.waits.move hr ht }

theorem Shake.Stage.waits {h : Shake x} {w : World} {c : Client x} : ∀ {i}, i ≤ 2 → h.Stage w c i → Waits w c (h.p + (h.before i).length)
  | 0, _, g => Offered.waits g
  | 1, _, g => Keyed.waits g
  | 2, _, g => Keyed.waits g
  | _ + 3, g, _ => absurd g (by omega)

theorem Shake.Stage.state {h : Shake x} {w : World} {c : Client x} : ∀ {i}, h.Stage w c i → c.state ≠ .sendFinished ∧ c.state ≠ .waitDiscon
  | 0, g => by have := Offered.state g; rw [this]; simp
  | 1, g => by have := Keyed.state g; rw [this]; simp
  | _ + 2, g => by have := Keyed.state g; rw [this]; simp

theorem Shake.Stage.move {h : Shake x} {w w' : World} {c : Client x} : ∀ {i}, i ≤ 2 → h.Stage w c i →
    RxState w'.chip c.sn.toU8.toNat (h.p + (h.before i).length) → TxState w'.chip c.sn.toU8.toNat → h.Stage w' c i
  | 0, _, g, hr, ht => Offered.at g hr ht
  | 1, _, g, hr, ht => Keyed.at g hr ht
  | 2, _, g, hr, ht => Keyed.at g hr ht
  | _ + 3, g, _, _, _ => absurd g (by omega)

/-- A client that has handled `i` records, the last at the time `t`, or has sent the ClientHello then; `F` bytes are free, and the
payloads `sent` were sent. -/
structure Shaking (h : Shake x) (i : Nat) (t : UInt32) (F : Nat) (sent : List Bytes) (w : World) (c : Client x) : Prop where
  stage : h.Stage w c i
  timeout : c.timeout = some t
  sn : c.sn = h.sn
  n : c.rx.n = h.n
  peace : Peace h.sn.toU8.toNat w
  room : F ≤ w.chip.txFsr h.sn.toU8.toNat
  sent : w.chip.sent.map (·.payload) = sent

theorem Shaking.pause {h : Shake x} {i : Nat} {t : UInt32} {F : Nat} {sent : List Bytes} {w : World} {c : Client x} (hi : i ≤ 2)
    (g : Shaking h i t F sent w c) (q : Pause) (hq : q.Calm h.sn.toU8.toNat) : Shaking h i t F sent (q.after w) c :=
  ⟨g.stage.move hi (q.rx (g.stage.waits hi).rx) (q.tx (g.stage.waits hi).tx).1, g.timeout, g.sn, g.n, Pause.peace g.peace hq,
    Nat.le_trans g.room (by have := (q.tx (g.stage.waits hi).tx).2; rw [g.sn] at this; exact this), by rw [q.sent]; exact g.sent⟩

/-- The handshake is finished. -/
structure Shaken (h : Shake x) (F : Nat) (sent : List Bytes) (w : World) (c : Client x) : Prop where
  sent : w.chip.sent.map (·.payload) = sent ++ [h.a.reply h.psk h.dhe h.ch]
  client : c.ks.clientTraffic = some (Spec.Tls.clientAppTraffic h.psk h.dhe h.messages)
  writeSeq : c.ks.writeSeq = 0
  readSeq : c.ks.readSeq = 0
  sn : c.sn = h.sn
  n : c.rx.n = h.n
  timeout : c.timeout = none
  peace : Peace h.sn.toU8.toNat w
  room : F ≤ w.chip.txFsr h.sn.toU8.toNat + 58
  ready : Ready w c (Spec.Tls.serverAppTraffic h.psk h.dhe h.messages) (h.p + h.flight.length) []

theorem record_framed (h : Shake x) (ha : Honest x h.a h.pub h.n) (hn : 79 ≤ h.n ∧ h.n ≤ 32768) : ∀ i, i ≤ 2 → ∃ m, Framed (h.record i) m ∧ m ≤ h.n - 22
  | 0, _ => ⟨_, plaintextHandshake_framed _ (by have := ha.helloSize; omega), ha.helloSize⟩
  | 1, _ => ⟨_, protect_framed _ _ _ _ (by have := ha.extensionsSize; omega), ha.extensionsSize⟩
  | 2, _ => by
    refine ⟨_, protect_framed _ _ _ _ ?_, ?_⟩
    all_goals
      unfold Answer.fin Spec.Tls.serverFinished
      rw [HsMsg_length]
      simp only [verifyData_length]
      omega
  | _ + 3, h => absurd h (by omega)

/-- One call, by cases: nothing new, one record handled, the last record handled. -/
theorem shake_cases (hx : x.Standard) (fuel : Nat) (rng : Rng x) (secs : UInt32) (h : Shake x) (ha : Honest x h.a h.pub h.n)
    (hn : 79 ≤ h.n ∧ h.n ≤ 32768) {i : Nat} (hi : i ≤ 2) {t : UInt32} {F : Nat} (hF : 58 ≤ F) {sent : List Bytes} {w : World} {c : Client x}
    (g : Shaking h i t F sent w c) (ht : t.toNat ≤ secs.toNat) (more : Bytes)
    (hst : ((process false (fuel + 2) worldBus rng secs (w, c)).2.1.chip.received h.sn.toU8.toNat).drop h.p <+: h.flight ++ more) :
    let r := process false (fuel + 2) worldBus rng secs (w, c)
    w.chip.received h.sn.toU8.toNat <+: r.2.1.chip.received h.sn.toU8.toNat ∧
    ((∃ res c', r = (res, (r.2.1, c')) ∧ WaitsOrGivesUp c secs res c' ∧ (c' = c → Shaking h i t F sent r.2.1 c) ∧
      ¬ h.flight <+: (w.chip.received h.sn.toU8.toNat).drop h.p ∧ r.2.1.chip.sent.map (·.payload) = sent) ∨
    (i < 2 ∧ r.1 = .ok (.callAfter 10) ∧ Shaking h (i + 1) secs F sent r.2.1 r.2.2) ∨
    (i = 2 ∧ r.1 = .ok .handshakeFinished ∧ Shaken h F sent r.2.1 r.2.2)) := by
  intro r
  have hw := g.stage.waits hi
  obtain ⟨m, hfr, hm⟩ := record_framed h ha hn i hi
  have hlim := limit_toNat hw.size
  have hsn : c.sn.idx = h.sn.toU8.toNat := by rw [g.sn]
  have hsn' : c.sn.toU8.toNat = h.sn.toU8.toNat := hsn
  have hcut : ∀ l : Bytes, l <+: h.flight ++ more → l.drop (h.before i).length <+: h.record i ++ (h.rest i ++ more) := by
    intro l hl
    have := _root_.Verif.prefix_drop hl (h.before i).length
    rw [h.flight_eq i hi, List.append_assoc, List.drop_left, List.append_assoc] at this
    exact this
  have hcut' : ∀ l : Bytes, h.flight <+: l → h.record i <+: l.drop (h.before i).length := by
    intro l hl
    have := _root_.Verif.prefix_drop hl (h.before i).length
    rw [h.flight_eq i hi, List.drop_left] at this
    exact (List.prefix_append _ _).trans this
  rcases arrive_cases (fuel + 2) rng secs hw.receives hw.rx hw.tx (by rw [hsn]; exact g.peace) (h.record i) (h.rest i ++ more) hfr
    (by rw [hlim, g.n]; exact hm) (by rw [hsn, ← List.drop_drop]; exact hcut _ hst) with
    ⟨w', e, h1, h2, h3, h4, h5, h6, h7⟩ | ⟨w', e, h1, h2, h3, h4, h5, h6, h7⟩
  · -- nothing new
    obtain ⟨res, c', e', hwt⟩ := afterRecv_waits false secs w' c g.stage.state.1 g.stage.state.2 (by
      intro t0 h0
      rw [g.timeout] at h0
      injection h0 with h0
      rw [← h0]; exact ht)
    have hr : r = (res, (w', c')) := e.trans e'
    rw [hsn] at h4 h5 h6 h7
    refine ⟨by rw [hr]; exact h4, .inl ⟨res, c', by rw [hr], hwt, fun _ => ?_, fun hfl => h7 ?_, by rw [hr]; show w'.chip.sent.map _ = _; rw [h3]; exact g.sent⟩⟩
    · rw [hr]
      exact ⟨g.stage.move hi h1 h2, g.timeout, g.sn, g.n, h5, Nat.le_trans g.room h6, by rw [h3]; exact g.sent⟩
    · rw [← List.drop_drop]
      exact hcut' _ hfl
  · -- a record
    have hst' := g.stage.move hi h1 h2
    have hq : Quiet w' c := Peace.quiet h5
    rw [hsn] at h4 h5 h6 h7
    have hs' : w'.chip.sent.map (·.payload) = sent := by rw [h3]; exact g.sent
    change r = _ at e
    rw [← hsn'] at h7
    match i, hi, hst' with
    | 0, _, hst' =>
      rcases step_hello hx false fuel rng secs hst' hq (a := h.a) (pub := h.pub) (by rw [g.n]; exact ha) h7 with ⟨_, hd, -⟩ | ⟨w1, c1, e1, k1, s1, f1, g1, t1⟩
      · cases hd
      have hr := e.trans e1
      have hpre := k1.pre
      have hpe := k1.peace
      rw [hsn] at hpre hpe f1
      rw [hr]
      refine ⟨h4.trans hpre, .inr (.inl ⟨by omega, rfl, g1, t1, k1.sn.trans g.sn, k1.n.trans g.n, hpe h5, ?_, by rw [s1]; exact hs'⟩)⟩
      exact Nat.le_trans g.room (Nat.le_trans h6 f1)
    | 1, _, hst' =>
      rcases step_extensions hx false fuel rng secs hst' hq (a := h.a) (pub := h.pub) (by rw [g.n]; exact ha) h7 with
        ⟨_, hd, -⟩ | ⟨w1, c1, e1, k1, s1, f1, g1, t1⟩
      · cases hd
      have hr := e.trans e1
      have hpre := k1.pre
      have hpe := k1.peace
      rw [hsn] at hpre hpe f1
      rw [hr]
      refine ⟨h4.trans hpre, .inr (.inl ⟨by omega, rfl, ?_, t1, k1.sn.trans g.sn, k1.n.trans g.n, hpe h5, ?_, by rw [s1]; exact hs'⟩)⟩
      · show Keyed w1 c1 (h.p + (h.before 2).length) _ _ _ _ _ _
        rw [show h.before 2 = h.before 1 ++ h.record 1 from rfl, List.length_append, ← Nat.add_assoc]
        exact g1
      · exact Nat.le_trans g.room (Nat.le_trans h6 f1)
    | 2, _, hst' =>
      rcases step_finished hx false fuel rng secs hst' hq (by rw [g.n]; omega) h7 (by rw [hsn']; exact Nat.le_trans hF (Nat.le_trans g.room h6)) with
        ⟨_, hd, -⟩ | ⟨w1, c1, e1, k1, s1, rx1, tx1, st1, b1, -, ct1, sv1, rs1, ws1, to1, f1⟩
      · cases hd
      have hr := e.trans e1
      have hpre := k1.pre
      have hpe := k1.peace
      rw [hsn] at hpre hpe f1 rx1 tx1
      have hsn1 : c1.sn = h.sn := k1.sn.trans g.sn
      rw [hr]
      refine ⟨h4.trans hpre, .inr (.inr ⟨rfl, rfl, by rw [← hs']; exact s1, ct1, ws1, rs1, hsn1, k1.n.trans g.n, to1, hpe h5,
        Nat.le_trans g.room (Nat.le_trans h6 f1), ?_⟩)⟩
      refine ⟨by show decide (c1.state = .connected) = true; rw [st1]; rfl, sv1, by rw [ct1]; rfl, by rw [rs1]; decide, b1.q, ?_, ?_⟩
      · rw [hsn1]
        have : h.p + h.flight.length = h.p + (h.before 2).length + (h.a.record3 h.psk h.dhe h.ch).length := by
          rw [h.flight_eq 2 (by omega), List.length_append, List.length_append]
          show _ = h.p + _ + (h.record 2).length
          have : (h.rest 2).length = 0 := rfl
          omega
        rw [this]
        exact rx1
      · rw [hsn1]
        exact tx1
    | j + 3, hi, _ => exact absurd hi (by omega)

end Verif.Tls
