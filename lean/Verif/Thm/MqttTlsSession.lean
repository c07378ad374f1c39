import Verif.Proof.TlsTake
import Verif.Proof.TlsOverflow
import Verif.Proof.MqttTlsGrows
import Verif.Thm.MqttTlsErr
import Verif.Thm.MqttSession
/-!
# C110: the MQTT packets that arrive on a TLS connection
-/
namespace Verif.MqttTls
open Verif Hl
open _root_.Verif.Spec (World worldBus TxState RxState EnvStep)
open Verif.Tls (X Crypto TEvent Fail Rng)
open _root_.Verif.Spec.MqttSession (Packet)
open _root_.Verif.Spec.MqttTlsSession (Turn turn turns Shows Seen seen takePacket Room)

variable {x : Crypto}

/-- What happens at the head of the unread data. -/
def headSeen (ops : List PubOp) (D : Bytes) : List Packet → Seen
  | [] => .nothing
  | y :: _ => if y.bytes.isPrefixOf D then seen ops y else .nothing

theorem isPrefixOf_false {a b : Bytes} (h : ¬ a <+: b) : a.isPrefixOf b = false := by
  rw [Bool.eq_false_iff]
  exact fun e => h (List.isPrefixOf_iff_prefix.mp e)

theorem idle_none {secs : UInt32} {c c' : Client x} {res : Except (Fail Error) Event} (h : Idle secs c res c') (ht : c.timeout = none) :
    res = .ok .none ∧ c' = c := h.1 ht

/-- A turn whose call of the TLS client leaves the unread data `D` handles the first packet, if it is complete. -/
theorem turn_packet (fuel : Nat) (t : Turn x) (w w1 : World) (c : Client x) (c1 : Tls.Client x) (D : Bytes)
    (h : Gives false fuel t.rng t.secs (w.pause t.before t.during) c.tls w1 c1 D) (ht : c.timeout = none)
    (xs : List Packet) (hok : ∀ y ∈ xs, y.ok) (hD : D <+: xs.flatMap Packet.bytes) :
    ∃ c2, turn fuel t (w, c) = (headSeen t.ops D xs, w1, c2) ∧ Left { c with tls := c1 } c2 (takePacket D xs).1 := by
  have nothing : ∀ type flags body, body.length ≤ 65535 → D <+: Spec.Mqtt.packet type flags body → D ≠ Spec.Mqtt.packet type flags body →
      turn fuel t (w, c) = (.nothing, w1, { c with tls := c1 }) := by
    intro type flags body hl hp hne
    have e := incomplete_in false fuel t.rng t.secs _ w1 c c1 D h type flags body hl hp hne
    obtain ⟨i1, i2⟩ := checkTimeout_idle false t.secs w1 { c with tls := c1 }
    obtain ⟨j1, j2⟩ := i2.1 ht
    rw [show checkTimeout false t.secs (w1, { c with tls := c1 }) = (.ok .none, (w1, { c with tls := c1 })) from Prod.ext j1 (Prod.ext i1 j2)] at e
    unfold turn
    rw [e]
  cases xs with
  | nil =>
    have hnil : D = [] := List.prefix_nil.mp hD
    refine ⟨_, nothing 13 0 [] (by decide) (by rw [hnil]; exact List.nil_prefix) (by rw [hnil]; exact fun e => by simp [Spec.Mqtt.packet] at e),
      h.holds, rfl, rfl⟩
  | cons y ys =>
    have hy := hok y (List.mem_cons_self ..)
    rw [List.flatMap_cons] at hD
    by_cases hp : y.bytes <+: D
    · obtain ⟨rest, hrest⟩ := hp
      have hb : y.bytes.isPrefixOf D = true := List.isPrefixOf_iff_prefix.mpr ⟨rest, hrest⟩
      unfold headSeen takePacket
      dsimp only
      rw [if_pos hb, if_pos hb, show (D.drop y.bytes.length, ys).1 = rest by rw [← hrest, List.drop_left]]
      cases y with
      | message topic payload props flags =>
        obtain ⟨h1, rd, info, h2, -, -, h3⟩ := C91_publish false fuel t.rng t.secs _ w1 c c1 D h topic payload props rest flags hy.2.2.1 hy.2.1
          hrest.symm
        obtain ⟨u1, u2⟩ := h3 t.ops
        obtain ⟨c2, u3, u4⟩ := u2 w1
        refine ⟨c2, ?_, u4⟩
        have e : process false fuel worldBus t.rng t.secs (w.pause t.before t.during, c) = (.ok (.publish rd info), (w1, { c with tls := c1 })) :=
          Prod.ext h2 h1
        unfold turn
        rw [e]
        dsimp only
        rw [u3]
        dsimp only
        rw [u1]
        rfl
      | subAck id reason props =>
        obtain ⟨h1, h2, h3⟩ := C91_suback_partial false fuel t.rng t.secs _ w1 c c1 D h id reason props rest hy.2 hrest.symm
        generalize hr : process false fuel worldBus t.rng t.secs (w.pause t.before t.during, c) = r at h1 h2 h3
        obtain ⟨e, w2, c2⟩ := r
        dsimp only at h1 h2 h3
        subst h1 h2
        refine ⟨c2, ?_, h3⟩
        unfold turn
        rw [hr]
        rfl
      | unSubAck id reason props =>
        obtain ⟨h1, h2, h3⟩ := C91_unsuback_partial false fuel t.rng t.secs _ w1 c c1 D h id reason props rest hy.2 hrest.symm
        generalize hr : process false fuel worldBus t.rng t.secs (w.pause t.before t.during, c) = r at h1 h2 h3
        obtain ⟨e, w2, c2⟩ := r
        dsimp only at h1 h2 h3
        subst h1 h2
        refine ⟨c2, ?_, h3⟩
        unfold turn
        rw [hr]
        rfl
      | other type flags body =>
        obtain ⟨h1, c2, h2, h3⟩ := C91_ignored false fuel t.rng t.secs _ w1 c c1 D h type flags body rest hy.2.1 hy.2.2.1 hy.2.2.2 hrest.symm
        obtain ⟨j1, j2⟩ := h3.1 (by rw [h2.same]; exact ht)
        generalize hr : process false fuel worldBus t.rng t.secs (w.pause t.before t.during, c) = r at h1 j1 j2
        obtain ⟨e, w2, c3⟩ := r
        dsimp only at h1 j1 j2
        subst h1 j1 j2
        refine ⟨c3, ?_, h2⟩
        unfold turn
        rw [hr]
        rfl
    · have hb := isPrefixOf_false hp
      unfold headSeen takePacket
      dsimp only
      rw [hb]
      have hpre : D <+: y.bytes := by
        rcases List.prefix_or_prefix_of_prefix hD (List.prefix_append y.bytes (ys.flatMap Packet.bytes)) with h | h
        · exact h
        · exact absurd h hp
      have hne : D ≠ y.bytes := fun e => hp (by rw [e])
      have hbody : (Thm.parts y).2.2.length ≤ 65535 := by
        have := hy.1
        rw [Thm.parts_bytes] at this
        simp [Spec.Mqtt.packet] at this
        omega
      rw [Thm.parts_bytes] at hpre hne
      exact ⟨_, nothing _ _ _ hbody hpre hne, h.holds, rfl, rfl⟩

/-- The connection between two turns. -/
structure Live (w : World) (c : Client x) (t : Bytes) (p : Nat) (D : Bytes) : Prop where
  ready : Tls.Ready w c.tls t p D
  tlsTime : c.tls.timeout = none
  time : c.timeout = none
  calm : Spec.Mqtt.quiet (w.chip.mem (4 * c.tls.sn.toU8.toNat + 1) 2) = true

/-- What turns do not change; `n` records were taken. -/
structure Kept (w w' : World) (c c' : Client x) (n : Nat) : Prop where
  sent : w'.chip.sent = w.chip.sent
  received : w.chip.received c.tls.sn.toU8.toNat <+: w'.chip.received c.tls.sn.toU8.toNat
  same : c' = { c with tls := { c.tls with rx := c'.tls.rx, ks := { c.tls.ks with readSeq := c'.tls.ks.readSeq } } }
  size : c'.tls.rx.n = c.tls.rx.n
  seq : c'.tls.ks.readSeq.toNat = c.tls.ks.readSeq.toNat + n

theorem Kept.trans {w w' w'' : World} {c c' c'' : Client x} {n m : Nat} (h : Kept w w' c c' n) (h' : Kept w' w'' c' c'' m) :
    Kept w w'' c c'' (n + m) := by
  have hsn : c'.tls.sn = c.tls.sn := by rw [h.same]
  refine ⟨h'.sent.trans h.sent, h.received.trans (by rw [← hsn]; exact h'.received), ?_, h'.size.trans h.size, by rw [h'.seq, h.seq]; omega⟩
  have := h'.same
  rw [h.same] at this
  exact this

theorem pause_ready {w : World} {c : Client x} {t : Bytes} {p : Nat} {D : Bytes} {tn : Turn x} (h : Live w c t p D)
    (hq : tn.quiet c.tls.sn.toU8.toNat) :
    Tls.Ready (w.pause tn.before tn.during) c.tls t p D ∧ Peace c.tls.sn.toU8.toNat (w.pause tn.before tn.during) ∧
      (w.pause tn.before tn.during).chip.sent = w.chip.sent ∧
      w.chip.received c.tls.sn.toU8.toNat <+: (w.pause tn.before tn.during).chip.received c.tls.sn.toU8.toNat := by
  have hp : Peace c.tls.sn.idx ({ w with sched := tn.before :: tn.during } : World) := ⟨h.calm, hq⟩
  have hc := calm_tick c.tls.sn.idx ({ w with sched := tn.before :: tn.during } : World)
  obtain ⟨base, hb⟩ := h.ready.rx.at
  have hr := h.ready
  exact ⟨⟨hr.connected, hr.traffic, hr.client, hr.seq, hr.holds, (hc.rx _ _ hb).state, hc.tx hr.tx⟩, hp.tick, hc.sent, hc.recvd⟩

theorem Left.ready {w1 : World} {c c2 : Client x} {c1 : Tls.Client x} {t : Bytes} {p : Nat} {D D' : Bytes} (e : Left { c with tls := c1 } c2 D')
    (h : Tls.Ready w1 c1 t p D) : Tls.Ready w1 c2.tls t p D' := by
  have hs : c2.tls = { c1 with rx := c2.tls.rx } := by rw [e.same]
  have hh := e.holds
  generalize c2.tls = q at hs hh
  rw [hs] at hh ⊢
  exact ⟨h.connected, h.traffic, h.client, h.seq, hh, h.rx, h.tx⟩

theorem delivered_ready {w : World} {c : Tls.Client x} {t : Bytes} {p : Nat} {D r : Bytes} {res : Except (Fail Tls.TErr) TEvent × (World × Tls.Client x)}
    (hr : Tls.Ready w c t p D) (h : Tls.Delivered w c t p D r (r.length + 17) res) (hseq : c.ks.readSeq.toNat + 2 < 2 ^ 64) :
    Tls.Ready res.2.1 res.2.2 t (p + (Spec.Tls.protect t c.ks.readSeq.toNat 23 r).length) (D ++ r) ∧
      res.2.2.ks.readSeq.toNat = c.ks.readSeq.toNat + 1 := by
  obtain ⟨ev, w1, c1⟩ := res
  obtain ⟨d1, d2, d3, d4, d5, d6, d7, d8, d9, d10, d11⟩ := h
  dsimp only at d1 d2 d3 d4 d5 d6 d7 d8 d9 d10 d11 ⊢
  have hsn : c1.sn = c.sn := by rw [d5]
  have hst : c1.state = c.state := by rw [d5]
  have hn1 : c1.ks.readSeq.toNat = c.ks.readSeq.toNat + 1 := by
    rw [d4]
    show (c.ks.readSeq + 1).toNat = _
    rw [UInt64.toNat_add, show (1 : UInt64).toNat = 1 from rfl]
    omega
  refine ⟨⟨?_, by rw [d4]; exact hr.traffic, by rw [d4]; exact hr.client, by rw [hn1]; omega, d3, ?_, by rw [hsn]; exact d8⟩, hn1⟩
  · unfold Tls.Client.connected
    rw [hst]
    exact hr.connected
  · rw [hsn, Tls.protect_length, show p + (r.length + 22) = p + 5 + (r.length + 17) by omega]
    exact d7

/-- One turn: the next record is taken, if it has arrived, and then the next packet is shown, if it is complete. -/
theorem turn_step (hx : x.Standard) (fuel : Nat) (tn : Turn x) (t : Bytes) (w : World) (c : Client x) (p : Nat) (D : Bytes)
    (h : Live w c t p D) (hq : tn.quiet c.tls.sn.toU8.toNat) (rs : List Bytes) (xs : List Packet) (hok : ∀ y ∈ xs, y.ok)
    (hfit : ∀ r rs', rs = r :: rs' → r.length + 17 ≤ c.tls.recordSizeLimit.toNat ∧ (D ++ r).length + 2 ≤ c.tls.rx.n)
    (hseq : c.tls.ks.readSeq.toNat + rs.length + 1 < 2 ^ 64)
    (hD : D ++ rs.flatten <+: xs.flatMap Packet.bytes)
    (hs : ((turn fuel tn (w, c)).2.1.chip.received c.tls.sn.toU8.toNat).drop p <+: Tls.protectAll t c.tls.ks.readSeq.toNat rs) :
    ∃ w' c', (turn fuel tn (w, c) = (headSeen tn.ops D xs, w', c') ∧ Live w' c' t p (takePacket D xs).1 ∧ Kept w w' c c' 0 ∧
        ∀ r rs', rs = r :: rs' → ¬ Spec.Tls.protect t c.tls.ks.readSeq.toNat 23 r <+: (w.chip.received c.tls.sn.toU8.toNat).drop p) ∨
      ∃ r rs', rs = r :: rs' ∧ turn fuel tn (w, c) = (headSeen tn.ops (D ++ r) xs, w', c') ∧
        Live w' c' t (p + (Spec.Tls.protect t c.tls.ks.readSeq.toNat 23 r).length) (takePacket (D ++ r) xs).1 ∧ Kept w w' c c' 1 := by
  obtain ⟨q1, q2, q3, q4⟩ := pause_ready h hq
  have hst := (_root_.Verif.prefix_drop (turn_received (k := c.tls.sn.toU8.toNat) fuel tn w c).pre p).trans hs
  generalize hnext : (match rs with | [] => none | r :: rs' => some (r, Tls.protectAll t (c.tls.ks.readSeq.toNat + 1) rs') : Option (Bytes × Bytes)) = next
  have hpa : Tls.protectAll t c.tls.ks.readSeq.toNat rs = next.elim [] (fun y => Spec.Tls.protect t c.tls.ks.readSeq.toNat 23 y.1 ++ y.2) := by
    rw [← hnext]
    cases rs <;> rfl
  rw [hpa] at hst
  have hn : ∀ y, next = some y → ∃ r rs', rs = r :: rs' ∧ y.1 = r := by
    intro y hy
    rw [← hnext] at hy
    cases rs with
    | nil => cases hy
    | cons r rs' => cases hy; exact ⟨r, rs', rfl, rfl⟩
  rcases Tls.take_cases hx fuel tn.rng tn.secs q1 h.tlsTime q2 next hst (by
    intro y hy
    obtain ⟨r, rs', e, e'⟩ := hn y hy
    obtain ⟨f1, f2⟩ := hfit r rs' e
    rw [List.length_append] at f2
    rw [e']
    exact ⟨f1, f2⟩) with ⟨hw, hno⟩ | ⟨y, hy, hd⟩
  · -- no record
    have hg : Gives false fuel tn.rng tn.secs (w.pause tn.before tn.during) c.tls
        (Tls.process false fuel worldBus tn.rng tn.secs (w.pause tn.before tn.during, c.tls)).2.1 c.tls D :=
      ⟨.inr (Prod.ext hw.event (Prod.ext rfl hw.same)), q1.holds⟩
    obtain ⟨c2, e1, e2⟩ := turn_packet fuel tn w _ c c.tls D hg h.time xs hok ((List.prefix_append _ _).trans hD)
    have hsn : c2.tls.sn = c.tls.sn := by rw [e2.same]
    refine ⟨_, c2, .inl ⟨e1, ⟨e2.ready hw.ready, by rw [e2.same]; exact h.tlsTime, by rw [e2.same]; exact h.time, by rw [hsn]; exact hw.peace.now⟩,
      ⟨hw.sent.trans q3, q4.trans hw.received, ?_, e2.size, by rw [e2.same]; rfl⟩, ?_⟩⟩
    · have := e2.same
      rw [this]
    · intro r rs' e hpre
      subst e
      exact hno _ hnext.symm (hpre.trans (_root_.Verif.prefix_drop q4 p))
  · obtain ⟨r, rs', e, e'⟩ := hn y hy
    rw [e'] at hd
    have hlen : rs.length = rs'.length + 1 := by rw [e, List.length_cons]
    obtain ⟨r1, r2⟩ := delivered_ready q1 hd (by omega)
    have hg : Gives false fuel tn.rng tn.secs (w.pause tn.before tn.during) c.tls
        (Tls.process false fuel worldBus tn.rng tn.secs (w.pause tn.before tn.during, c.tls)).2.1
        (Tls.process false fuel worldBus tn.rng tn.secs (w.pause tn.before tn.during, c.tls)).2.2 (D ++ r) :=
      ⟨.inl (Prod.ext hd.event rfl), hd.holds⟩
    obtain ⟨c2, e1, e2⟩ := turn_packet fuel tn w _ c _ (D ++ r) hg h.time xs hok ((by
      rw [e, List.flatten_cons, ← List.append_assoc] at hD
      exact (List.prefix_append _ _).trans hD))
    have d5 := hd.same
    have d4 := hd.keys
    have d6 := hd.size
    generalize (Tls.process false fuel worldBus tn.rng tn.secs (w.pause tn.before tn.during, c.tls)).2.2 = c1 at *
    have hsn1 : c1.sn = c.tls.sn := by rw [d5]
    have hsn : c2.tls.sn = c.tls.sn := by rw [e2.same]; exact hsn1
    refine ⟨_, c2, .inr ⟨r, rs', e, e1, ⟨e2.ready r1, by rw [e2.same]; show c1.timeout = none; rw [d5]; exact h.tlsTime,
      by rw [e2.same]; exact h.time, by rw [hsn]; exact (hd.peace q2).now⟩,
      ⟨hd.sent.trans q3, q4.trans hd.received, ?_, e2.size.trans d6, by rw [e2.same]; exact r2⟩⟩⟩
    have hks : c2.tls.ks = c1.ks := by rw [e2.same]
    have := e2.same
    rw [this]
    show ({ c with tls := { c1 with rx := c2.tls.rx } } : Client x) = { c with tls := { c.tls with rx := c2.tls.rx, ks := { c.tls.ks with readSeq := c1.ks.readSeq } } }
    rw [d4, d5]

theorem takePacket_cases (ops : List PubOp) (D : Bytes) (xs : List Packet) :
    (∃ y ys D', xs = y :: ys ∧ D = y.bytes ++ D' ∧ headSeen ops D xs = seen ops y ∧ takePacket D xs = (D', ys)) ∨
    (headSeen ops D xs = .nothing ∧ takePacket D xs = (D, xs) ∧ ∀ y ys, xs = y :: ys → ¬ y.bytes <+: D) := by
  cases xs with
  | nil => exact .inr ⟨rfl, rfl, fun y ys h => by cases h⟩
  | cons y ys =>
    unfold headSeen takePacket
    dsimp only
    by_cases hp : y.bytes <+: D
    · obtain ⟨D', hD⟩ := hp
      have hb : y.bytes.isPrefixOf D = true := List.isPrefixOf_iff_prefix.mpr ⟨D', hD⟩
      rw [if_pos hb, if_pos hb]
      exact .inl ⟨y, ys, D', rfl, hD.symm, rfl, by rw [← hD, List.drop_left]⟩
    · rw [isPrefixOf_false hp]
      exact .inr ⟨rfl, rfl, fun y' ys' h => by cases h; exact hp⟩

/-- There is still room if more packets were taken. -/
theorem room_ahead (n : Nat) : ∀ (rs : List Bytes) (taken xs : List Packet) (D : Bytes), Room n (taken.flatMap Packet.bytes ++ D) rs (taken ++ xs) →
    Room n D rs xs := by
  intro rs
  induction rs with
  | nil => intros; trivial
  | cons r rs ih =>
    intro taken xs D h
    cases taken with
    | nil => exact h
    | cons z zs =>
      obtain ⟨h1, h2⟩ := h
      have e1 : takePacket ((z :: zs).flatMap Packet.bytes ++ D ++ r) (z :: zs ++ xs) = (zs.flatMap Packet.bytes ++ (D ++ r), zs ++ xs) := by
        rw [List.flatMap_cons, List.append_assoc, List.append_assoc, List.cons_append]
        unfold takePacket
        dsimp only
        rw [if_pos (List.isPrefixOf_iff_prefix.mpr (List.prefix_append _ _)), List.drop_left]
      rw [e1] at h2
      refine ⟨by simp only [List.length_append] at h1 ⊢; omega, ?_⟩
      rcases takePacket_cases [] (D ++ r) xs with ⟨y, ys, D', rfl, e2, -, e3⟩ | ⟨-, e2, -⟩
      · rw [e3]
        refine ih (zs ++ [y]) ys D' ?_
        rw [List.flatMap_append, List.append_assoc, List.append_assoc, List.flatMap_cons, List.flatMap_nil, List.append_nil, ← e2]
        exact h2
      · rw [e2]
        exact ih zs xs (D ++ r) h2

theorem turns_cons (fuel : Nat) (tn : Turn x) (ts : List (Turn x)) (s : World × Client x) {o : Seen} {s' : World × Client x}
    (h : turn fuel tn s = (o, s')) : turns fuel (tn :: ts) s = (o :: (turns fuel ts s').1, (turns fuel ts s').2) := by
  rw [turns, h]

theorem protectAll_append (t : Bytes) : ∀ (as bs : List Bytes) (n : Nat),
    Tls.protectAll t n (as ++ bs) = Tls.protectAll t n as ++ Tls.protectAll t (n + as.length) bs := by
  intro as
  induction as with
  | nil => intro bs n; rfl
  | cons a as ih =>
    intro bs n
    rw [List.cons_append, Tls.protectAll, Tls.protectAll, ih, List.append_assoc, List.length_cons, show n + 1 + as.length = n + (as.length + 1) by omega]

theorem append_prefix {a b c : Bytes} (h : a ++ b <+: a ++ c) : b <+: c := (List.prefix_append_right_inj a).mp h

theorem session (hx : x.Standard) (fuel : Nat) (t : Bytes) : ∀ (ts : List (Turn x)) (w : World) (c : Client x) (p : Nat) (D : Bytes) (rs : List Bytes)
    (xs : List Packet), Live w c t p D → (∀ tn ∈ ts, tn.quiet c.tls.sn.toU8.toNat) → (∀ y ∈ xs, y.ok) →
    (∀ r ∈ rs, r.length + 17 ≤ c.tls.recordSizeLimit.toNat) → Room c.tls.rx.n D rs xs → c.tls.ks.readSeq.toNat + rs.length + 1 < 2 ^ 64 →
    D ++ rs.flatten <+: xs.flatMap Packet.bytes →
    (∀ n, ((turns fuel (ts.take n) (w, c)).2.1.chip.received c.tls.sn.toU8.toNat).drop p <+: Tls.protectAll t c.tls.ks.readSeq.toNat rs) →
    ∃ n k D', n ≤ xs.length ∧ k ≤ rs.length ∧ Shows ts (turns fuel ts (w, c)).1 (xs.take n) ∧
      (xs.take n).flatMap Packet.bytes ++ D' = D ++ (rs.take k).flatten ∧
      Live (turns fuel ts (w, c)).2.1 (turns fuel ts (w, c)).2.2 t (p + (Tls.protectAll t c.tls.ks.readSeq.toNat (rs.take k)).length) D' ∧
      Kept w (turns fuel ts (w, c)).2.1 c (turns fuel ts (w, c)).2.2 k ∧
      ∀ m i j, i ≤ rs.length → j ≤ xs.length → m + i + j ≤ ts.length →
        Tls.protectAll t c.tls.ks.readSeq.toNat (rs.take i) <+:
          ((turns fuel (ts.take m) (w, c)).2.1.chip.received c.tls.sn.toU8.toNat).drop p →
        (xs.take j).flatMap Packet.bytes <+: D ++ (rs.take i).flatten → j ≤ n := by
  intro ts
  induction ts with
  | nil =>
    intro w c p D rs xs h _ _ _ _ _ _ _
    refine ⟨0, 0, D, Nat.zero_le _, Nat.zero_le _, .nil, by simp, ?_, ⟨rfl, List.prefix_rfl, rfl, rfl, rfl⟩, fun m i j _ _ hm _ _ => ?_⟩
    · exact h
    · simp at hm; omega
  | cons tn ts ih =>
    intro w c p D rs xs h hq hok hlim hroom hseq hD hs
    have h1 := hs 1
    change ((turn fuel tn (w, c)).2.1.chip.received c.tls.sn.toU8.toNat).drop p <+: _ at h1
    -- what the rest of the turns needs, after a turn that took `k0` records
    have rest : ∀ (w' : World) (c' : Client x) (k0 : Nat) (D1 : Bytes), k0 ≤ rs.length → D1 = D ++ (rs.take k0).flatten →
        turn fuel tn (w, c) = (headSeen tn.ops D1 xs, w', c') →
        Live w' c' t (p + (Tls.protectAll t c.tls.ks.readSeq.toNat (rs.take k0)).length) (takePacket D1 xs).1 → Kept w w' c c' k0 →
        Room c.tls.rx.n (takePacket D1 xs).1 (rs.drop k0) (takePacket D1 xs).2 →
        (∀ i, k0 < i → i ≤ rs.length → k0 = 0 →
          ¬ Tls.protectAll t c.tls.ks.readSeq.toNat (rs.take i) <+: (w.chip.received c.tls.sn.toU8.toNat).drop p) →
        k0 ≤ 1 →
        ∃ n k D', n ≤ xs.length ∧ k ≤ rs.length ∧ Shows (tn :: ts) (turns fuel (tn :: ts) (w, c)).1 (xs.take n) ∧
          (xs.take n).flatMap Packet.bytes ++ D' = D ++ (rs.take k).flatten ∧
          Live (turns fuel (tn :: ts) (w, c)).2.1 (turns fuel (tn :: ts) (w, c)).2.2 t
            (p + (Tls.protectAll t c.tls.ks.readSeq.toNat (rs.take k)).length) D' ∧
          Kept w (turns fuel (tn :: ts) (w, c)).2.1 c (turns fuel (tn :: ts) (w, c)).2.2 k ∧
          ∀ m i j, i ≤ rs.length → j ≤ xs.length → m + i + j ≤ (tn :: ts).length →
            Tls.protectAll t c.tls.ks.readSeq.toNat (rs.take i) <+:
              ((turns fuel ((tn :: ts).take m) (w, c)).2.1.chip.received c.tls.sn.toU8.toNat).drop p →
            (xs.take j).flatMap Packet.bytes <+: D ++ (rs.take i).flatten → j ≤ n := by
      intro w' c' k0 D1 hk0 hD1 hturn hlive hkept hroom' hno hk1
      have hT := fun us => turns_cons fuel tn us (w, c) hturn
      have hsn : c'.tls.sn = c.tls.sn := by rw [hkept.same]
      have hl : c'.tls.recordSizeLimit = c.tls.recordSizeLimit := by unfold Tls.Client.recordSizeLimit; rw [hkept.size]
      have hklen : (rs.take k0).length = k0 := by rw [List.length_take]; omega
      have hsplit : Tls.protectAll t c.tls.ks.readSeq.toNat rs =
          Tls.protectAll t c.tls.ks.readSeq.toNat (rs.take k0) ++ Tls.protectAll t c'.tls.ks.readSeq.toNat (rs.drop k0) := by
        rw [hkept.seq]
        conv => lhs; rw [← List.take_append_drop k0 rs]
        rw [protectAll_append, hklen]
      have htake : ∀ i, rs.take (k0 + i) = rs.take k0 ++ (rs.drop k0).take i := fun i => List.take_add
      have hpt : ∀ i, Tls.protectAll t c.tls.ks.readSeq.toNat (rs.take (k0 + i)) =
          Tls.protectAll t c.tls.ks.readSeq.toNat (rs.take k0) ++ Tls.protectAll t c'.tls.ks.readSeq.toNat ((rs.drop k0).take i) := by
        intro i
        rw [htake, protectAll_append, hklen, hkept.seq]
      have hD1' : D1 ++ (rs.drop k0).flatten <+: xs.flatMap Packet.bytes := by
        rw [hD1, List.append_assoc, ← List.flatten_append, List.take_append_drop]
        exact hD
      have hs' : ∀ n, ((turns fuel (ts.take n) (w', c')).2.1.chip.received c'.tls.sn.toU8.toNat).drop
          (p + (Tls.protectAll t c.tls.ks.readSeq.toNat (rs.take k0)).length) <+: Tls.protectAll t c'.tls.ks.readSeq.toNat (rs.drop k0) := by
        intro n
        have := hs (n + 1)
        rw [List.take_succ_cons, hT, hsplit] at this
        rw [hsn]
        exact Thm.prefix_shorten this
      have hq' : ∀ tn ∈ ts, tn.quiet c'.tls.sn.toU8.toNat := by
        rw [hsn]; exact fun tn htn => hq tn (List.mem_cons_of_mem _ htn)
      have hlim' : ∀ r ∈ rs.drop k0, r.length + 17 ≤ c'.tls.recordSizeLimit.toNat := by
        rw [hl]; exact fun r hr => hlim r (List.mem_of_mem_drop hr)
      have hseq' : c'.tls.ks.readSeq.toNat + (rs.drop k0).length + 1 < 2 ^ 64 := by
        rw [hkept.seq, List.length_drop]; omega
      rw [← hkept.size] at hroom'
      -- the arguments of the last part
      have hargs : ∀ m i j, i ≤ rs.length →
          Tls.protectAll t c.tls.ks.readSeq.toNat (rs.take i) <+:
            ((turns fuel ((tn :: ts).take m) (w, c)).2.1.chip.received c.tls.sn.toU8.toNat).drop p →
          (xs.take j).flatMap Packet.bytes <+: D ++ (rs.take i).flatten →
          Tls.protectAll t c'.tls.ks.readSeq.toNat ((rs.drop k0).take (i - k0)) <+:
            ((turns fuel (ts.take (m - 1)) (w', c')).2.1.chip.received c'.tls.sn.toU8.toNat).drop
              (p + (Tls.protectAll t c.tls.ks.readSeq.toNat (rs.take k0)).length) ∧
          (xs.take j).flatMap Packet.bytes <+: D1 ++ ((rs.drop k0).take (i - k0)).flatten ∧ (k0 < i → m = 0 → k0 = 1) := by
        intro m i j hi h1 h2
        refine ⟨?_, ?_, ?_⟩
        · by_cases hlt : k0 < i
          · have hi' : i = k0 + (i - k0) := by omega
            rw [hi', hpt] at h1
            rw [hsn]
            cases m with
            | zero =>
              exact Thm.prefix_rest (h1.trans (_root_.Verif.prefix_drop hkept.received p))
            | succ m =>
              rw [List.take_succ_cons, hT] at h1
              exact Thm.prefix_rest h1
          · rw [show i - k0 = 0 by omega]
            exact List.nil_prefix
        · by_cases hlt : k0 ≤ i
          · have hi' : i = k0 + (i - k0) := by omega
            rw [hi', htake, List.flatten_append, ← List.append_assoc, ← hD1] at h2
            exact h2
          · have hi0 : i = 0 := by omega
            subst hi0
            rw [List.take_zero, List.flatten_nil, List.append_nil] at h2
            refine h2.trans ?_
            rw [hD1, List.append_assoc]
            exact List.prefix_append _ _
        · intro hlt hm
          subst hm
          rcases Nat.eq_zero_or_pos k0 with h0 | h0
          · exact absurd h1 (hno i hlt hi h0)
          · omega
      rcases takePacket_cases tn.ops D1 xs with ⟨y, ys, D2, rfl, f1, f2, f3⟩ | ⟨f1, f2, f3⟩
      · rw [f3] at hlive hroom'
        dsimp only at hlive hroom'
        obtain ⟨n, k, D', g1, g2, g3, g4, g5, g6, g7⟩ := ih w' c' _ D2 (rs.drop k0) ys hlive hq' (fun z hz => hok z (List.mem_cons_of_mem _ hz))
          hlim' hroom' hseq' (by rw [f1, List.flatMap_cons, List.append_assoc] at hD1'; exact append_prefix hD1') hs'
        rw [List.length_drop] at g2
        rw [hT, f2]
        refine ⟨n + 1, k0 + k, D', by rw [List.length_cons]; omega, by omega, .packet g3, ?_, ?_, hkept.trans g6, ?_⟩
        · rw [List.take_succ_cons, List.flatMap_cons, List.append_assoc, g4, ← List.append_assoc, ← f1, hD1, htake, List.flatten_append, List.append_assoc]
        · rw [hpt, List.length_append, ← Nat.add_assoc]
          exact g5
        · intro m i j hi hj hm h1 h2
          obtain ⟨a1, a2, -⟩ := hargs m i j hi h1 h2
          cases j with
          | zero => omega
          | succ j =>
            rw [List.take_succ_cons, List.flatMap_cons, f1, List.append_assoc] at a2
            rw [List.length_cons] at hm hj
            have := g7 (m - 1) (i - k0) j (by rw [List.length_drop]; omega) (by omega) (by omega) a1 (append_prefix a2)
            omega
      · rw [f2] at hlive hroom'
        dsimp only at hlive hroom'
        obtain ⟨n, k, D', g1, g2, g3, g4, g5, g6, g7⟩ := ih w' c' _ D1 (rs.drop k0) xs hlive hq' hok hlim' hroom' hseq' hD1' hs'
        rw [List.length_drop] at g2
        rw [hT, f1]
        refine ⟨n, k0 + k, D', g1, by omega, .none g3, ?_, ?_, hkept.trans g6, ?_⟩
        · rw [g4, hD1, htake, List.flatten_append, List.append_assoc]
        · rw [hpt, List.length_append, ← Nat.add_assoc]
          exact g5
        · intro m i j hi hj hm h1 h2
          obtain ⟨a1, a2, a3⟩ := hargs m i j hi h1 h2
          cases j with
          | zero => omega
          | succ j =>
            rw [List.length_cons] at hm
            by_cases hlt : k0 < i
            · have := a3 hlt
              exact g7 (m - 1) (i - k0) (j + 1) (by rw [List.length_drop]; omega) hj (by omega) a1 a2
            · exfalso
              rw [show i - k0 = 0 by omega, List.take_zero, List.flatten_nil, List.append_nil] at a2
              cases xs with
              | nil => simp at hj
              | cons y ys =>
                rw [List.take_succ_cons, List.flatMap_cons] at a2
                exact f3 y ys rfl ((List.prefix_append _ _).trans a2)
    obtain ⟨w', c', h2⟩ := turn_step hx fuel tn t w c p D h (hq tn (List.mem_cons_self ..)) rs xs hok (by
      intro r rs' e
      subst e
      exact ⟨hlim r (List.mem_cons_self ..), hroom.1⟩) hseq hD h1
    rcases h2 with ⟨e1, e2, e3, e4⟩ | ⟨r, rs', e, e1, e2, e3⟩
    · refine rest w' c' 0 D (Nat.zero_le _) (by simp) e1 e2 e3 ?_ ?_ (by omega)
      · rw [List.drop_zero]
        rcases takePacket_cases [] D xs with ⟨y, ys, D', rfl, f1, -, f2⟩ | ⟨-, f2, -⟩
        · rw [f2]
          refine room_ahead _ rs [y] ys D' ?_
          rw [List.flatMap_cons, List.flatMap_nil, List.append_nil, ← f1]
          exact hroom
        · rw [f2]; exact hroom
      · intro i hi hil _ hp
        cases rs with
        | nil => simp at hil; omega
        | cons r rs' =>
          cases i with
          | zero => omega
          | succ i =>
            rw [List.take_succ_cons, Tls.protectAll] at hp
            exact e4 r rs' rfl ((List.prefix_append _ _).trans hp)
    · subst e
      refine rest w' c' 1 (D ++ r) (by simp) (by simp) e1 ?_ e3 hroom.2 (fun i _ _ h => by omega) (by omega)
      rw [List.take_succ_cons, List.take_zero, Tls.protectAll, Tls.protectAll, List.append_nil]
      exact e2

/-! ## A stream that has arrived -/

/-- Nothing arrives during the turn. -/
def silent (k : Nat) (t : Turn x) : Prop := ∀ es ∈ t.before :: t.during, ∀ bs, EnvStep.arrive k bs ∉ es

theorem turn_silent (fuel : Nat) (tn : Turn x) {w : World} {c : Client x} {t : Bytes} {p : Nat} {D : Bytes} (h : Live w c t p D)
    (hq : tn.quiet c.tls.sn.toU8.toNat) (hs : silent c.tls.sn.toU8.toNat tn) :
    (turn fuel tn (w, c)).2.1.chip.received c.tls.sn.toU8.toNat = w.chip.received c.tls.sn.toU8.toNat := by
  obtain ⟨q1, q2, -, -⟩ := pause_ready h hq
  have h0 : Still c.tls.sn.toU8.toNat ({ w with sched := tn.before :: tn.during } : World) := hs
  obtain ⟨h1, h2⟩ := h0.tick
  have h3 := (Tls.process_onward false fuel tn.rng tn.secs q1 q2).trans (turn_received (k := c.tls.sn.toU8.toNat) fuel tn w c)
  exact (h3.still h1).2.trans h2

theorem turns_append (fuel : Nat) : ∀ (as bs : List (Turn x)) (s : World × Client x),
    (turns fuel (as ++ bs) s).2 = (turns fuel bs (turns fuel as s).2).2 := by
  intro as
  induction as with
  | nil => intro bs s; rfl
  | cons a as ih => intro bs s; exact ih bs _

/-- When the stream has arrived and nothing more arrives, it does not change. -/
theorem silent_stream (hx : x.Standard) (fuel : Nat) (t : Bytes) (ts : List (Turn x)) (w : World) (c : Client x) (p : Nat) (D : Bytes)
    (rs : List Bytes) (xs : List Packet) (h : Live w c t p D) (hq : ∀ tn ∈ ts, tn.quiet c.tls.sn.toU8.toNat)
    (hsil : ∀ tn ∈ ts, silent c.tls.sn.toU8.toNat tn) (hok : ∀ y ∈ xs, y.ok)
    (hlim : ∀ r ∈ rs, r.length + 17 ≤ c.tls.recordSizeLimit.toNat) (hroom : Room c.tls.rx.n D rs xs)
    (hseq : c.tls.ks.readSeq.toNat + rs.length + 1 < 2 ^ 64) (hD : D ++ rs.flatten <+: xs.flatMap Packet.bytes)
    (hs : (w.chip.received c.tls.sn.toU8.toNat).drop p <+: Tls.protectAll t c.tls.ks.readSeq.toNat rs) :
    ∀ n, (turns fuel (ts.take n) (w, c)).2.1.chip.received c.tls.sn.toU8.toNat = w.chip.received c.tls.sn.toU8.toNat := by
  have key : ∀ n m, m ≤ n → (turns fuel (ts.take m) (w, c)).2.1.chip.received c.tls.sn.toU8.toNat = w.chip.received c.tls.sn.toU8.toNat := by
    intro n
    induction n with
    | zero => intro m hm; rw [show m = 0 by omega]; rfl
    | succ n ih =>
      intro m hm
      by_cases hmn : m ≤ n
      · exact ih m hmn
      have hm : m = n + 1 := by omega
      subst hm
      by_cases hl : n < ts.length
      · obtain ⟨_, k, D', -, -, -, -, h5, h6, -⟩ := session hx fuel t (ts.take n) w c p D rs xs h
          (fun tn htn => hq tn (List.mem_of_mem_take htn)) hok hlim hroom hseq hD (fun m => by
            rw [List.take_take, ih _ (Nat.min_le_right _ _)]; exact hs)
        rw [List.take_succ_eq_append_getElem hl, turns_append]
        have hsn : (turns fuel (ts.take n) (w, c)).2.2.tls.sn = c.tls.sn := by rw [h6.same]
        have := turn_silent fuel ts[n] h5 (by rw [hsn]; exact hq _ (List.getElem_mem hl)) (by rw [hsn]; exact hsil _ (List.getElem_mem hl))
        rw [hsn] at this
        exact this.trans (ih n (Nat.le_refl _))
      · rw [List.take_of_length_le (by omega), ← List.take_of_length_le (show ts.length ≤ n by omega)]
        exact ih n (Nat.le_refl _)
  exact fun n => key n n (Nat.le_refl _)

/-- **C110 (part): MQTT over TLS shows every packet once and in order.**  A client (built for release) whose TLS connection is established
and that waits for no answer: `D` is unread, the server goes on to send the records with the contents `rs`, and `D` and these contents
together are a beginning of the packets `xs`.  The records may cut the packets anywhere, and may come in pieces, before and during the calls of
`process`.  Then the application sees the first `n` of the packets, each once, whole and in their order, at most one in a turn, and no error.
Nothing is sent, the client is the same but for its buffer and the number of records it read, which is what it took from the socket, and
the buffer holds what the records brought and the application did not see.  A packet whose last byte is in the first `i` records, and that
is the `j`th, is seen if there are `i + j` turns after these records arrived.
What is missing: the receive buffer must have room for each record when its turn comes, because the client takes one record and one packet in
each call (`Room`, for which `room_of_total` and `room_of_groups` give two sufficient conditions); `C110_burst_not` shows what happens
otherwise. -/
theorem C110_session_partial (hx : x.Standard) (fuel : Nat) (t : Bytes) (ts : List (Turn x)) (w : World) (c : Client x) (p : Nat) (D : Bytes)
    (rs : List Bytes) (xs : List Packet) (hr : Tls.Ready w c.tls t p D) (ht1 : c.tls.timeout = none) (ht2 : c.timeout = none)
    (hi : Spec.Mqtt.quiet (Spec.Mqtt.interrupts w.chip c.tls.sn.toU8.toNat) = true) (hq : ∀ tn ∈ ts, tn.quiet c.tls.sn.toU8.toNat)
    (hok : ∀ y ∈ xs, y.ok) (hlim : ∀ r ∈ rs, r.length + 17 ≤ c.tls.recordSizeLimit.toNat) (hroom : Room c.tls.rx.n D rs xs)
    (hseq : c.tls.ks.readSeq.toNat + rs.length + 1 < 2 ^ 64) (hD : D ++ rs.flatten <+: xs.flatMap Packet.bytes)
    (hs : ∀ n, ((turns fuel (ts.take n) (w, c)).2.1.chip.received c.tls.sn.toU8.toNat).drop p <+: Tls.protectAll t c.tls.ks.readSeq.toNat rs) :
    let r := turns fuel ts (w, c)
    ∃ n k D', n ≤ xs.length ∧ k ≤ rs.length ∧ Shows ts r.1 (xs.take n) ∧
      (xs.take n).flatMap Packet.bytes ++ D' = D ++ (rs.take k).flatten ∧
      Tls.Ready r.2.1 r.2.2.tls t (p + (Tls.protectAll t c.tls.ks.readSeq.toNat (rs.take k)).length) D' ∧
      r.2.1.chip.sent = w.chip.sent ∧
      r.2.2 = { c with tls := { c.tls with rx := r.2.2.tls.rx, ks := { c.tls.ks with readSeq := r.2.2.tls.ks.readSeq } } } ∧
      r.2.2.tls.ks.readSeq.toNat = c.tls.ks.readSeq.toNat + k ∧
      ∀ m i j, i ≤ rs.length → j ≤ xs.length → m + i + j ≤ ts.length →
        Tls.protectAll t c.tls.ks.readSeq.toNat (rs.take i) <+:
          ((turns fuel (ts.take m) (w, c)).2.1.chip.received c.tls.sn.toU8.toNat).drop p →
        (xs.take j).flatMap Packet.bytes <+: D ++ (rs.take i).flatten → j ≤ n := by
  obtain ⟨n, k, D', h1, h2, h3, h4, h5, h6, h7⟩ := session hx fuel t ts w c p D rs xs ⟨hr, ht1, ht2, hi⟩ hq hok hlim hroom hseq hD hs
  exact ⟨n, k, D', h1, h2, h3, h4, h5.ready, h6.sent, h6.same, h6.seq, h7⟩

/-- **C110 (part), packets that have arrived**: all of `rs` has arrived, it ends with the end of a packet, and there are enough turns.  Then the
turns show all the packets, in their order. -/
theorem C110_arrived_partial (hx : x.Standard) (fuel : Nat) (t : Bytes) (ts : List (Turn x)) (w : World) (c : Client x) (p : Nat) (D : Bytes)
    (rs : List Bytes) (xs : List Packet) (hr : Tls.Ready w c.tls t p D) (ht1 : c.tls.timeout = none) (ht2 : c.timeout = none)
    (hi : Spec.Mqtt.quiet (Spec.Mqtt.interrupts w.chip c.tls.sn.toU8.toNat) = true) (hq : ∀ tn ∈ ts, tn.quiet c.tls.sn.toU8.toNat)
    (hsil : ∀ tn ∈ ts, silent c.tls.sn.toU8.toNat tn)
    (hok : ∀ y ∈ xs, y.ok) (hlim : ∀ r ∈ rs, r.length + 17 ≤ c.tls.recordSizeLimit.toNat) (hroom : Room c.tls.rx.n D rs xs)
    (hseq : c.tls.ks.readSeq.toNat + rs.length + 1 < 2 ^ 64) (hD : D ++ rs.flatten = xs.flatMap Packet.bytes)
    (hs : (w.chip.received c.tls.sn.toU8.toNat).drop p = Tls.protectAll t c.tls.ks.readSeq.toNat rs) (hn : rs.length + xs.length ≤ ts.length) :
    Shows ts (turns fuel ts (w, c)).1 xs := by
  have hD' : D ++ rs.flatten <+: xs.flatMap Packet.bytes := by rw [hD]
  have hst := silent_stream hx fuel t ts w c p D rs xs ⟨hr, ht1, ht2, hi⟩ hq hsil hok hlim hroom hseq hD' (by rw [hs])
  obtain ⟨n, k, D', h1, -, h3, -, -, -, h7⟩ := session hx fuel t ts w c p D rs xs ⟨hr, ht1, ht2, hi⟩ hq hok hlim hroom hseq hD'
    (fun m => by rw [hst m, hs])
  have := h7 0 rs.length xs.length (Nat.le_refl _) (Nat.le_refl _) (by omega) (by rw [hst 0, hs, List.take_length])
    (by rw [List.take_length, List.take_length, hD])
  rw [List.take_of_length_le this] at h3
  exact h3

theorem takePacket_length (D : Bytes) (xs : List Packet) : (takePacket D xs).1.length ≤ D.length := by
  cases xs with
  | nil => exact Nat.le_refl _
  | cons y ys =>
    unfold takePacket
    dsimp only
    split
    · show (D.drop _).length ≤ _
      rw [List.length_drop]; omega
    · exact Nat.le_refl _

/-- There is room if everything that is to come fits into the buffer. -/
theorem room_of_total (n : Nat) : ∀ (rs : List Bytes) (D : Bytes) (xs : List Packet), D.length + rs.flatten.length + 2 ≤ n → Room n D rs xs := by
  intro rs
  induction rs with
  | nil => intro D xs _; trivial
  | cons r rs ih =>
    intro D xs h
    rw [List.flatten_cons, List.length_append] at h
    have hl := takePacket_length (D ++ r) xs
    rw [List.length_append] at hl
    exact ⟨by rw [List.length_append]; omega, ih _ _ (by omega)⟩

theorem room_group (n : Nat) (y : Packet) (ys : List Packet) (rest : List Bytes) (hrest : Room n [] rest ys) (hn : y.bytes.length + 2 ≤ n) :
    ∀ (gs : List Bytes) (D : Bytes), gs ≠ [] → (∀ g ∈ gs, g ≠ []) → D ++ gs.flatten = y.bytes → Room n D (gs ++ rest) (y :: ys) := by
  intro gs
  induction gs with
  | nil => intro D h; exact absurd rfl h
  | cons g gs ih =>
    intro D _ hne hD
    have hl := congrArg List.length hD
    rw [List.flatten_cons] at hD
    simp only [List.length_append, List.flatten_cons] at hl
    refine ⟨by rw [List.length_append]; omega, ?_⟩
    cases gs with
    | nil =>
      rw [List.flatten_nil, List.append_nil] at hD
      have : takePacket (D ++ g) (y :: ys) = ([], ys) := by
        unfold takePacket
        dsimp only
        rw [hD, if_pos (by simp), List.drop_length]
      rw [this]
      exact hrest
    | cons g' gs' =>
      have hg' : g'.length ≠ 0 := fun h => hne g' (by simp) (List.eq_nil_of_length_eq_zero h)
      simp only [List.length_append, List.flatten_cons] at hl
      have : takePacket (D ++ g) (y :: ys) = (D ++ g, y :: ys) := by
        unfold takePacket
        dsimp only
        rw [isPrefixOf_false fun h => by
          have := h.length_le
          rw [List.length_append] at this
          omega]
        rfl
      rw [this]
      exact ih (D ++ g) (by simp) (fun a h => hne a (List.mem_cons_of_mem _ h)) (by rw [List.append_assoc]; exact hD)

/-- There is room if the server puts every packet into records of its own, one or more, none of them empty, and no packet is too large for the
buffer, however many there are. -/
theorem room_of_groups (n : Nat) : ∀ (gs : List (Packet × List Bytes)),
    (∀ g ∈ gs, g.2 ≠ [] ∧ (∀ r ∈ g.2, r ≠ []) ∧ g.2.flatten = g.1.bytes ∧ g.1.bytes.length + 2 ≤ n) →
    Room n [] (gs.flatMap Prod.snd) (gs.map Prod.fst) := by
  intro gs
  induction gs with
  | nil => intro _; trivial
  | cons g gs ih =>
    intro h
    obtain ⟨h1, h2, h3, h4⟩ := h g (by simp)
    rw [List.flatMap_cons, List.map_cons]
    exact room_group n g.1 _ _ (ih fun g hg => h g (List.mem_cons_of_mem _ hg)) h4 g.2 [] h1 h2 h3

/-- **C110 is false** without room in the buffer: a record arrived that is not longer than the client allows, but the unread packets of the
records before it and its content do not fit together.  Then the turn fails with an `InternalError` alert of the client and the connection is
lost, although the application called `process` for every record and every packet is small.  (When the free space is a multiple of 16 bytes
the buffer may also take one byte too many, `C53_one_byte_too_many_is_accepted`; this case is left out here.) -/
theorem C110_burst_not (hx : x.Standard) (fuel : Nat) (tn : Turn x) (t : Bytes) (w : World) (c : Client x) (p : Nat) (D r : Bytes)
    (hr : Tls.Ready w c.tls t p D) (hi : Spec.Mqtt.quiet (Spec.Mqtt.interrupts w.chip c.tls.sn.toU8.toNat) = true)
    (hq : tn.quiet c.tls.sn.toU8.toNat) (ht1 : c.tls.timeout = none) (ht2 : c.timeout = none)
    (ha : Spec.Tls.protect t c.tls.ks.readSeq.toNat 23 r <+: (w.chip.received c.tls.sn.toU8.toNat).drop p)
    (hlim : r.length + 17 ≤ c.tls.recordSizeLimit.toNat) (hfull : c.tls.rx.n < D.length + r.length + 1)
    (hal : (c.tls.rx.n - D.length) % 16 ≠ 0) :
    (turn fuel tn (w, c)).1 = .failure ∧
    (∃ a : Tls.Alert, a.description = .internalError ∧
      (process false fuel worldBus tn.rng tn.secs (w.pause tn.before tn.during, c)).1 = .error (.err (.clientAlert a))) ∧
    (turn fuel tn (w, c)).2.2.tls.connected = false := by
  obtain ⟨q1, q2, -, q4⟩ := pause_ready (tn := tn) ⟨hr, ht1, ht2, hi⟩ hq
  have h := (Tls.no_room hx false fuel tn.rng tn.secs q1 q2.quiet (ha.trans (_root_.Verif.prefix_drop q4 p)) hlim hfull hal).resolve_left
    (fun h => absurd h.1 (by decide))
  obtain ⟨⟨a, h1, h2⟩, h3, -⟩ := h
  rcases hm : Tls.process false fuel worldBus tn.rng tn.secs (w.pause tn.before tn.during, c.tls) with ⟨res, s1, cl⟩
  rw [hm] at h1 h3
  have e : process false fuel worldBus tn.rng tn.secs (w.pause tn.before tn.during, c) = (.error (.err (.clientAlert a)), (s1, { c with tls := cl })) := by
    unfold process
    refine X.bind_error ?_
    unfold onTls
    dsimp only
    rw [hm]
    dsimp only at h1
    rw [h1]
    rfl
  refine ⟨?_, ⟨a, h2, by rw [e]⟩, ?_⟩
  · unfold turn
    dsimp only
    rw [e]
  · unfold turn
    dsimp only
    rw [e]
    exact h3

/-! ## The hypotheses are met -/

namespace Witness
open Verif.Tls.Witness

/-- A message, an answer to a ping and an answer to a subscription, which the server cuts into three records. -/
def exPackets : List Packet := [.message [116] [1, 2] [] 0, .other 13 0 [], .subAck 258 .notAuthorized [7]]
def exRecords : List Bytes := [[0x30, 6, 0, 1], [116, 0, 1, 2, 0xD0, 0, 0x90], [5, 1, 2, 1, 7, 0x87]]

theorem exMessage : (Packet.message [116] [1, 2] [] 0).bytes = [0x30, 6, 0, 1, 116, 0, 1, 2] := by
  unfold Packet.bytes Spec.Mqtt.publish Spec.Mqtt.str Spec.Mqtt.u16
  have h : Spec.Mqtt.vbi ([] : Bytes).length = [0] := Thm.vbi_small (by decide)
  dsimp only
  rw [h, Thm.packet_small _ _ _ (by decide)]
  decide
theorem exSubAck : (Packet.subAck 258 .notAuthorized [7]).bytes = [0x90, 5, 1, 2, 1, 7, 0x87] := Thm.ack_small 9 258 [7] _ (by decide)
theorem exOther : (Packet.other 13 0 []).bytes = [0xD0, 0] := Thm.packet_small 13 0 [] (by decide)

theorem exPackets_bytes : exPackets.flatMap Packet.bytes = exRecords.flatten := by
  unfold exPackets
  simp only [List.flatMap_cons, exMessage, exSubAck, exOther]
  rfl

def exTurn : Turn X := ⟨[], rng, 0, [], [.topic 9, .payload 9]⟩

theorem client_limits : 417 ≤ client.tls.recordSizeLimit.toNat ∧ client.tls.rx.n = 1024 := by decide +kernel

/-- Six turns show the three packets of three records; the message with its topic and its payload. -/
example : Shows (List.replicate 6 exTurn) (turns 3 (List.replicate 6 exTurn) (Thm.tcpWorld 0 (Tls.protectAll serverApp 0 exRecords), client)).1 exPackets := by
  have hl : (Tls.protectAll serverApp 0 exRecords).length ≤ 2048 := by
    simp only [exRecords, Tls.protectAll, List.length_append, Tls.protect_length]
    decide
  refine C110_arrived_partial standard 3 serverApp _ _ client 0 [] exRecords exPackets (ready _ hl) rfl rfl (peace _).now ?_ ?_ ?_ ?_ ?_ (by decide) ?_ ?_
    (by decide)
  · intro tn h
    rw [List.eq_of_mem_replicate h]
    intro es hes bits hb
    simp only [exTurn, List.mem_cons, List.not_mem_nil, or_false] at hes
    rw [hes] at hb
    exact absurd hb (by simp)
  · intro tn h
    rw [List.eq_of_mem_replicate h]
    intro es hes bits hb
    simp only [exTurn, List.mem_cons, List.not_mem_nil, or_false] at hes
    rw [hes] at hb
    exact absurd hb (by simp)
  · intro y hy
    simp only [exPackets, List.mem_cons, List.not_mem_nil, or_false] at hy
    rcases hy with rfl | rfl | rfl
    · exact ⟨by rw [exMessage]; decide, by decide, by decide, by decide⟩
    · exact ⟨by rw [exOther]; decide, by decide, by decide, by decide⟩
    · exact ⟨by rw [exSubAck]; decide, by decide⟩
  · intro r hr
    have h1 := client_limits.1
    have h2 : ∀ r ∈ exRecords, r.length + 17 ≤ 417 := by decide
    have := h2 r hr
    omega
  · rw [client_limits.2]; exact room_of_total _ _ _ _ (by decide)
  · exact exPackets_bytes.symm
  · rfl

theorem exTurn_quiet (k : Nat) : exTurn.quiet k := by
  intro es hes bits hb
  simp only [exTurn, List.mem_cons, List.not_mem_nil, or_false] at hes
  rw [hes] at hb
  exact absurd hb (by simp)

theorem exTurn_silent (k : Nat) : silent k exTurn := by
  intro es hes bits hb
  simp only [exTurn, List.mem_cons, List.not_mem_nil, or_false] at hes
  rw [hes] at hb
  exact absurd hb (by simp)

/-- A record with 200 answers to pings, of two bytes each. -/
def burst : Bytes := List.flatten (List.replicate 200 [0xD0, 0])
def pings (n : Nat) : List Packet := List.replicate n (.other 13 0 [])

theorem pings_bytes (n : Nat) : (pings n).flatMap Packet.bytes = List.flatten (List.replicate n [0xD0, 0]) := by
  induction n with
  | zero => rfl
  | succ n ih =>
    show (Packet.other 13 0 []).bytes ++ (pings n).flatMap Packet.bytes = [0xD0, 0] ++ (List.replicate n [0xD0, 0]).flatten
    rw [exOther, ih]

theorem burst_length : burst.length = 400 := by decide +kernel

theorem pings_ok (n : Nat) : ∀ y ∈ pings n, y.ok := by
  intro y hy
  rw [List.eq_of_mem_replicate hy]
  exact ⟨by rw [exOther]; decide, by decide, by decide, by decide⟩

theorem flatten_pings (n m : Nat) : List.flatten (List.replicate n ([0xD0, 0] : Bytes)) ++ List.flatten (List.replicate m [0xD0, 0])
    = List.flatten (List.replicate (n + m) [0xD0, 0]) := by
  rw [← List.flatten_append, List.replicate_append_replicate]

/-- A turn that takes such a record: the number of unread packets grows by 199. -/
theorem burst_turn (w : World) (c : Client X) (p n m : Nat) (h : Live w c serverApp p (List.flatten (List.replicate n [0xD0, 0])))
    (hlim : 417 ≤ c.tls.recordSizeLimit.toNat) (hfit : 2 * n + 402 ≤ c.tls.rx.n) (hseq : c.tls.ks.readSeq.toNat + (m + 1) + 1 < 2 ^ 64)
    (hs : (w.chip.received c.tls.sn.toU8.toNat).drop p = Tls.protectAll serverApp c.tls.ks.readSeq.toNat (List.replicate (m + 1) burst)) :
    ∃ w' c', turn 3 exTurn (w, c) = (.nothing, w', c') ∧ Live w' c' serverApp (p + 422) (List.flatten (List.replicate (n + 199) [0xD0, 0])) ∧ Kept w w' c c' 1 ∧
      (w'.chip.received c.tls.sn.toU8.toNat).drop (p + 422) = Tls.protectAll serverApp (c.tls.ks.readSeq.toNat + 1) (List.replicate m burst) := by
  have hsil := turn_silent 3 exTurn h (exTurn_quiet _) (exTurn_silent _)
  have hfl : ∀ m, (List.replicate m burst).flatten = List.flatten (List.replicate (200 * m) [0xD0, 0]) := by
    intro m
    induction m with
    | zero => rfl
    | succ m ih => rw [List.replicate_succ, List.flatten_cons, ih, burst, flatten_pings]; congr 2; omega
  have hxs : (pings (n + 200 * (m + 1))) = .other 13 0 [] :: pings (n + 199 + 200 * m) := by
    unfold pings
    rw [← List.replicate_succ]; congr 1; omega
  have hD : List.flatten (List.replicate n [0xD0, 0]) ++ burst = [0xD0, 0] ++ List.flatten (List.replicate (n + 199) [0xD0, 0]) := by
    rw [burst, flatten_pings, ← List.flatten_cons, ← List.replicate_succ]
  have hlen : (List.flatten (List.replicate n ([0xD0, 0] : Bytes))).length = 2 * n := by simp; omega
  have htp : takePacket (List.flatten (List.replicate n [0xD0, 0]) ++ burst) (pings (n + 200 * (m + 1)))
      = (List.flatten (List.replicate (n + 199) [0xD0, 0]), pings (n + 199 + 200 * m)) := by
    rw [hxs]
    unfold takePacket
    dsimp only
    rw [exOther, hD, if_pos (List.isPrefixOf_iff_prefix.mpr (List.prefix_append _ _))]
    rfl
  obtain ⟨w', c', h1 | ⟨r, rs', h1, h2, h3, h4⟩⟩ := turn_step standard 3 exTurn serverApp w c p _ h (exTurn_quiet _) (List.replicate (m + 1) burst)
    (pings (n + 200 * (m + 1))) (pings_ok _) (by
      intro r rs' e
      rw [List.replicate_succ] at e
      injection e with e _
      rw [← e, List.length_append, burst_length, hlen]
      omega) (by rw [List.length_replicate]; omega) (by
      rw [hfl, flatten_pings, pings_bytes]) (by rw [hsil, hs])
  · refine absurd ?_ (h1.2.2.2 burst (List.replicate m burst) List.replicate_succ)
    rw [hs, List.replicate_succ]
    exact List.prefix_append _ _
  · rw [List.replicate_succ] at h1
    injection h1 with h1 h5
    subst h1
    rw [htp, Tls.protect_length, burst_length] at h3
    refine ⟨w', c', ?_, h3, h4, ?_⟩
    · rw [h2, hxs]
      unfold headSeen
      dsimp only
      rw [exOther, hD, if_pos (List.isPrefixOf_iff_prefix.mpr (List.prefix_append _ _))]
      rfl
    · rw [h2] at hsil
      change w'.chip.received _ = _ at hsil
      rw [hsil, ← List.drop_drop, hs, List.replicate_succ, show Tls.protectAll serverApp c.tls.ks.readSeq.toNat (burst :: List.replicate m burst)
        = Spec.Tls.protect serverApp c.tls.ks.readSeq.toNat 23 burst ++ Tls.protectAll serverApp (c.tls.ks.readSeq.toNat + 1) (List.replicate m burst) from rfl]
      have : (Spec.Tls.protect serverApp c.tls.ks.readSeq.toNat 23 burst).length = 422 := by rw [Tls.protect_length, burst_length]
      rw [← this, List.drop_left]

/-- Three such records: two turns take two of them and one of their packets each, and the third turn fails, because 796 unread bytes and the
400 of the third record do not fit into the buffer of 1024 bytes. -/
example : ∃ s1 s2, turn 3 exTurn (Thm.tcpWorld 0 (Tls.protectAll serverApp 0 [burst, burst, burst]), client) = (.nothing, s1) ∧
    turn 3 exTurn s1 = (.nothing, s2) ∧ (turn 3 exTurn s2).1 = .failure := by
  obtain ⟨l1, l2⟩ := client_limits
  have hl : (Tls.protectAll serverApp 0 [burst, burst, burst]).length ≤ 2048 := by
    simp only [Tls.protectAll, List.length_append, Tls.protect_length, burst_length]
    decide
  obtain ⟨w1, c1, a1, a2, a3, a4⟩ := burst_turn (Thm.tcpWorld 0 (Tls.protectAll serverApp 0 [burst, burst, burst])) client 0 0 2
    ⟨ready _ hl, rfl, rfl, (peace _).now⟩ l1 (by omega) (by decide) rfl
  have r1 : c1.tls.recordSizeLimit = client.tls.recordSizeLimit := by
    unfold Tls.Client.recordSizeLimit; rw [a3.size]
  have hsn : c1.tls.sn = client.tls.sn := by rw [a3.same]
  have q1 := a3.seq
  obtain ⟨w2, c2, b1, b2, b3, b4⟩ := burst_turn w1 c1 _ _ 1 a2 (by rw [r1]; exact l1) (by rw [a3.size]; omega) (by rw [q1]; decide)
    (by rw [hsn, a4, q1])
  have r2 : c2.tls.recordSizeLimit = c1.tls.recordSizeLimit := by
    unfold Tls.Client.recordSizeLimit; rw [b3.size]
  have hsn2 : c2.tls.sn = c1.tls.sn := by rw [b3.same]
  refine ⟨_, _, a1, b1, ?_⟩
  have hlen : (List.flatten (List.replicate (0 + 199 + 199) ([0xD0, 0] : Bytes))).length = 796 := by decide +kernel
  refine (C110_burst_not standard 3 exTurn serverApp w2 c2 _ _ burst b2.ready b2.calm (exTurn_quiet _) b2.tlsTime b2.time ?_ ?_ ?_ ?_).1
  · rw [hsn2, b4, b3.seq]
    exact List.prefix_append _ _
  · rw [r2, r1, burst_length]; exact l1
  · rw [b3.size, a3.size, l2, hlen, burst_length]; decide
  · rw [b3.size, a3.size, l2, hlen]; decide

end Witness

end Verif.MqttTls
