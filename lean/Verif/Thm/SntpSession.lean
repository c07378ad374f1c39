import Verif.Spec.SntpSession
import Verif.Proof.UdpQueue
import Verif.Thm.Sntp
import Verif.Thm.DhcpExchange
/-!
# C112: a session with an SNTP server
-/
namespace Verif.Thm
open Hl Spec Verif.Sntp Verif.Spec.SntpSession

theorem beforeShort_prefix {server : SockAddr} {a b : List Datagram} (h : a <+: b) : beforeShort server a ≤ beforeShort server b := by
  obtain ⟨t, rfl⟩ := h
  unfold beforeShort
  rw [List.takeWhile_append]
  split
  · rename_i e; rw [e, List.length_append]; omega
  · exact Nat.le_refl _

theorem beforeShort_le (server : SockAddr) (a : List Datagram) : beforeShort server a ≤ a.length := (List.takeWhile_prefix _).length_le

theorem beforeShort_at {server : SockAddr} {gs : List Datagram} {n : Nat} {g : Datagram} (hg : gs[n]? = some g) (hs : short server g = true) :
    beforeShort server gs ≤ n := by
  unfold beforeShort
  induction gs generalizing n with
  | nil => simp at hg
  | cons x gs ih =>
    cases n with
    | zero => simp at hg; subst hg; simp [hs]
    | succ n =>
      simp at hg
      rw [List.takeWhile_cons]
      split
      · have := ih hg; rw [List.length_cons]; omega
      · simp

/-- The replies say what the messages say, one for one. -/
inductive SaysAll : List Reply → List Spec.Sntp.Message → Prop
  | nil : SaysAll [] []
  | cons {r m rs ms} (h : Says r m) (hs : SaysAll rs ms) : SaysAll (r :: rs) (m :: ms)

/-- The state between two calls. -/
structure SntpReady (c : Client) (w : World) (gs : List Datagram) (n base : Nat) : Prop where
  queue : Queue c.sn.idx w gs n base
  tx : TxState w.chip c.sn.idx
  dip : w.chip.destIp c.sn.idx = c.server.ip.octets
  dport : w.chip.destPort c.sn.idx = c.server.port.toNat

theorem SntpReady.pause {c : Client} {w : World} {gs : List Datagram} {n base : Nat} (h : SntpReady c w gs n base) {before : List EnvStep}
    {during : List (List EnvStep)} (hw : WholeSteps c.sn.idx (before :: during)) :
    (∃ gs', gs <+: gs' ∧ SntpReady c (w.pause before during) gs' n base) ∧ (w.pause before during).chip.sent = w.chip.sent := by
  obtain ⟨gs', h1, h2⟩ := h.queue.pause hw
  obtain ⟨k, -, -⟩ := pause_calm c.sn.idx w before during
  exact ⟨⟨gs', h1, h2, k.tx h.tx, k.dip.trans h.dip, k.dport.trans h.dport⟩, k.sent⟩

theorem keepsWhole_clearIr (k : Nat) (sn : Sn) : KeepsWhole k (Verif.Sntp.clearIr worldBus sn) := by
  unfold Verif.Sntp.clearIr
  refine .bind ((closedWhole' k).bind _ _ ((closedWhole' k).read _ _ _) fun _ => (closedWhole' k).pure _) fun ir => ?_
  split
  · exact (closedWhole' k).write _ _ _ trivial
  · exact (closedWhole' k).pure _

theorem keepsWhole_onDatagram (k : Nat) (c : Client) (u : UdpReader) : KeepsWhole k (onDatagram worldBus c u) := by
  unfold onDatagram
  split
  · exact .bind (closed_udpReaderDone (closedWhole u.inner.sn k) u rfl) fun _ => (closedWhole' k).throw _ nofun
  · refine .bind (keepsWhole_onUdpReader k u _) fun x => .bind (closed_udpReaderDone (closedWhole x.2.inner.sn k) x.2 rfl) fun _ => ?_
    unfold replyOf
    split
    · exact (closedWhole' k).pure _
    · exact (closedWhole' k).throw _ nofun

/-- One call of `on_recv_interrupt`. -/
theorem sntp_recv {c : Client} {w : World} {gs : List Datagram} {n base : Nat} (h : SntpReady c w gs n base) :
    ∃ r w' gs' n', onRecvInterrupt false worldBus c w = (r, w') ∧ gs <+: gs' ∧ SntpReady c w' gs' n' base ∧ w'.chip.sent = w.chip.sent ∧
      ((n' = n ∧ n = gs.length ∧ r = .error .wouldBlock) ∨
       (∃ g gone, gs'[n]? = some g ∧ Outcome c.server g r gone ∧ n' = if gone then n + 1 else n)) := by
  obtain ⟨w1, k1, k2⟩ := sntp_clearIr c.sn w
  have hw1 := keepsWhole_clearIr c.sn.idx c.sn w h.queue.whole
  rw [k1] at hw1
  obtain ⟨gs1, g1, q1⟩ := h.queue.grow hw1 k2.recvd (k2.rx base)
  have he : onRecvInterrupt false worldBus c w = (udpReader false worldBus c.sn >>= fun u => onDatagram worldBus c u) w1 := by
    unfold onRecvInterrupt
    rw [M.bind_ok k1]
  rcases q1.reader with ⟨u, w2, gs2, g, h1, h2, h3, h4, h5, h6, h7⟩ | ⟨w2, gs2, h1, h2, h3, h4, h5⟩
  · obtain ⟨r, gone, w3, j1, j2, j3, j4, j5⟩ := onDatagram_run h5 h6
    have hc := (k2.toTxCalm.trans (h7.calm c.sn.idx).toTxCalm).trans j5
    have hw3 := keepsWhole_onDatagram c.sn.idx c u w2 h3.whole
    rw [j1] at hw3
    have e : onRecvInterrupt false worldBus c w = (r, w3) := by rw [he, M.bind_ok h1, j1]
    have hlt := (List.getElem?_eq_some_iff.mp h4).1
    cases gone with
    | true =>
      obtain ⟨gs3, g3, q3⟩ := h3.next h4 hw3 j4 j3
      refine ⟨r, w3, gs3, n + 1, e, (g1.trans h2).trans g3, ⟨q3, hc.tx h.tx, hc.dip.trans h.dip, hc.dport.trans h.dport⟩, hc.sent,
        .inr ⟨g, true, ?_, j2, rfl⟩⟩
      obtain ⟨t, rfl⟩ := g3
      rw [List.getElem?_append_left hlt, h4]
    | false =>
      obtain ⟨gs3, g3, q3⟩ := h3.stay hw3 j4 j3
      refine ⟨r, w3, gs3, n, e, (g1.trans h2).trans g3, ⟨q3, hc.tx h.tx, hc.dip.trans h.dip, hc.dport.trans h.dport⟩, hc.sent,
        .inr ⟨g, false, ?_, j2, rfl⟩⟩
      obtain ⟨t, rfl⟩ := g3
      rw [List.getElem?_append_left hlt, h4]
  · have hc := k2.toTxCalm.trans (h5.calm c.sn.idx).toTxCalm
    have := h.queue.le
    have := g1.length_le
    exact ⟨_, w2, gs2, n, by rw [he, M.bind_error h1], g1.trans h2, ⟨h3, hc.tx h.tx, hc.dip.trans h.dip, hc.dport.trans h.dport⟩, hc.sent,
      .inl ⟨rfl, by omega, rfl⟩⟩

/-- `request`. -/
theorem sntp_request {c : Client} {w : World} {gs : List Datagram} {n base : Nat} (h : SntpReady c w gs n base) :
    ∃ r w' gs', request worldBus c w = (r, w') ∧ gs <+: gs' ∧ SntpReady c w' gs' n base ∧
      ((r = .ok () ∧ w'.chip.sent = w.chip.sent ++ [⟨c.sn.idx, c.server.ip.octets, c.server.port.toNat, requestPkt⟩]) ∨
        (r = .error .outOfMemory ∧ w'.chip.sent = w.chip.sent ∧ w.chip.txFsr c.sn.idx < 48)) := by
  obtain ⟨r, w', gs', h1, h2, h3, h4, h5, h6, h7⟩ := h.queue.emitSend h.tx (EmitsAt.writeAll 0 requestPkt)
  refine ⟨r, w', gs', h1, h2, ⟨h3, h4, h5.trans h.dip, h6.trans h.dport⟩, ?_⟩
  rw [h.dip, h.dport] at h7
  exact h7

theorem outcome_short {server : SockAddr} {g : Datagram} {r : Except Err Reply} {gone : Bool} (h : Outcome server g r gone) :
    (gone = false ↔ short server g = true) := by
  have hdec : ∀ m, Spec.Sntp.decode g.payload = some m → 48 ≤ g.payload.length := by
    intro m hm
    unfold Spec.Sntp.decode at hm
    split at hm
    · assumption
    · cases hm
  unfold short
  cases h with
  | reply m r hs hd => have := hdec m hd; simp; omega
  | unacceptable m hs hd => have := hdec m hd; simp; omega
  | foreign hs => simp [hs]
  | short hs hd =>
    unfold Spec.Sntp.decode at hd
    split at hd
    · cases hd
    · simp [hs]; omega

theorem frames_inj {a b : List Datagram} (ha : Fit a) (hb : Fit b) (h : frames a = frames b) : a = b := by
  have h1 := frames_prefix ha hb (by rw [h]; exact List.prefix_refl _)
  have h2 := frames_prefix hb ha (by rw [h]; exact List.prefix_refl _)
  exact h1.eq_of_length (Nat.le_antisymm h1.length_le h2.length_le)

theorem drop_taken {gs gs' : List Datagram} {n n' : Nat} {g : Datagram} (hp : gs <+: gs') (hg : gs[n]? = some g) (hn : n + 1 ≤ n') :
    (gs'.take n').drop n = g :: (gs'.take n').drop (n + 1) := by
  have hg' : (gs'.take n')[n]? = some g := by
    rw [List.getElem?_take_of_lt (by omega)]
    obtain ⟨t, rfl⟩ := hp
    rw [List.getElem?_append_left (List.getElem?_eq_some_iff.mp hg).1, hg]
  obtain ⟨hlt, he⟩ := List.getElem?_eq_some_iff.mp hg'
  rw [List.drop_eq_getElem_cons hlt, he]

theorem sntp_session (c : Client) (base : Nat) : ∀ (as : List Act) (w : World) (gs : List Datagram) (n : Nat),
    SntpReady c w gs n base → (∀ a ∈ as, WholeSteps c.sn.idx a.steps) →
    ∃ gs' n', gs <+: gs' ∧ n ≤ n' ∧ SntpReady c (acts c as w).2 gs' n' base ∧
      (∀ g ∈ (gs'.take n').drop n, short c.server g = false) ∧
      SaysAll (replies (acts c as w).1) (((gs'.take n').drop n).filterMap (usable c.server)) ∧
      (∀ e, Done.got (.error e) ∈ (acts c as w).1 → e = .wouldBlock ∨ (e = .unexpectedEof ∧ ∃ g, gs'[n']? = some g ∧ short c.server g = true)) ∧
      (acts c as w).2.chip.sent = w.chip.sent ++ List.replicate (accepted (acts c as w).1)
        ⟨c.sn.idx, c.server.ip.octets, c.server.port.toNat, requestPkt⟩ ∧
      min (beforeShort c.server gs) (n + asked as) ≤ n' ∧
      (∀ xs ys gs0, as = xs ++ ys → Fit gs0 → (acts c xs w).2.chip.received c.sn.idx = frames gs0 →
        min (beforeShort c.server gs0) (asked ys) ≤ n') := by
  intro as
  induction as with
  | nil =>
    intro w gs n h _
    have h1 := h.queue.le
    refine ⟨gs, n, List.prefix_refl _, Nat.le_refl _, h, ?_, ?_, nofun, by simp [acts, accepted], Nat.min_le_right _ _, ?_⟩
    · simp
    · simp [acts, replies, SaysAll.nil]
    · intro xs ys gs0 e _ _
      have : ys = [] := by simp at e; exact e.2
      subst this
      exact Nat.le_trans (Nat.min_le_right _ _) (Nat.zero_le _)
  | cons a as ih =>
    intro w gs n h hq
    have hqa := hq a (List.mem_cons_self ..)
    have hq' := fun b hb => hq b (List.mem_cons_of_mem _ hb)
    cases a with
    | request before during =>
      obtain ⟨⟨gs1, g1, r1⟩, s1⟩ := h.pause hqa
      obtain ⟨r, w2, gs2, e, g2, r2, hr⟩ := sntp_request r1
      have hT : ∀ us, acts c (.request before during :: us) w = (.requested r :: (acts c us w2).1, (acts c us w2).2) := by
        intro us; rw [acts, Act.run, e]
      obtain ⟨gs', n', i1, i2, i3, i4, i5, i6, i7, i8, i9⟩ := ih w2 gs2 n r2 hq'
      rw [hT]
      refine ⟨gs', n', (g1.trans g2).trans i1, i2, i3, i4, i5, ?_, ?_, ?_, ?_⟩
      · intro x hx
        rcases List.mem_cons.mp hx with hx | hx
        · cases hx
        · exact i6 x hx
      · rw [i7]
        rcases hr with ⟨rfl, hr⟩ | ⟨rfl, hr, -⟩
        · rw [hr, s1, List.append_assoc]; rfl
        · rw [hr, s1]; rfl
      · have := beforeShort_prefix (server := c.server) (g1.trans g2)
        show min _ (n + asked as) ≤ n'
        omega
      · intro xs ys gs0 e0 hf hx
        cases xs with
        | nil =>
          have := frames_inj hf h.queue.fit (hx.symm.trans h.queue.recv)
          subst this
          have := beforeShort_prefix (server := c.server) (g1.trans g2)
          have e1 : asked ys = asked as := by rw [show ys = _ from e0.symm]; rfl
          omega
        | cons x xs =>
          injection e0 with e1 e2
          subst e1
          rw [hT] at hx
          exact i9 xs ys gs0 e2 hf hx
    | recv before during =>
      obtain ⟨⟨gs1, g1, r1⟩, s1⟩ := h.pause hqa
      obtain ⟨r, w2, gs2, n2, e, g2, r2, s2, hr⟩ := sntp_recv r1
      have hT : ∀ us, acts c (.recv before during :: us) w = (.got r :: (acts c us w2).1, (acts c us w2).2) := by
        intro us; rw [acts, Act.run, e]
      obtain ⟨gs', n', i1, i2, i3, i4, i5, i6, i7, i8, i9⟩ := ih w2 gs2 n2 r2 hq'
      rw [hT]
      have hb := beforeShort_prefix (server := c.server) (g1.trans g2)
      have hsent : (acts c as w2).2.chip.sent = w.chip.sent ++ List.replicate (accepted (acts c as w2).1)
          ⟨c.sn.idx, c.server.ip.octets, c.server.port.toNat, requestPkt⟩ := by rw [i7, s2, s1]
      have hle := i3.queue.le
      have hsplit : ∀ x xs ys gs0, (Act.recv before during :: as) = x :: xs ++ ys → Fit gs0 →
          (acts c (x :: xs) w).2.chip.received c.sn.idx = frames gs0 → min (beforeShort c.server gs0) (asked ys) ≤ n' := by
        intro x xs ys gs0 e0 hf hx
        injection e0 with e1 e2
        subst e1
        rw [hT] at hx
        exact i9 xs ys gs0 e2 hf hx
      have hmin : min (beforeShort c.server gs) (n + (asked as + 1)) ≤ n' := by
        rcases hr with ⟨rfl, hn, -⟩ | ⟨g, gone, hg, ho, rfl⟩
        · have := beforeShort_le c.server gs
          have := g1.length_le
          omega
        · cases gone with
          | true => simp only [if_true] at i8; omega
          | false =>
            have := beforeShort_at hg ((outcome_short ho).1 rfl)
            simp at i2
            omega
      refine ⟨gs', n', (g1.trans g2).trans i1, ?_, i3, ?_, ?_, ?_, hsent, hmin, ?_⟩
      · rcases hr with ⟨rfl, -, -⟩ | ⟨g, gone, hg, ho, rfl⟩
        · exact i2
        · split at i2 <;> omega
      · rcases hr with ⟨rfl, -, -⟩ | ⟨g, gone, hg, ho, rfl⟩
        · exact i4
        · cases gone with
          | false => exact i4
          | true =>
            intro x hx
            rw [drop_taken i1 hg i2] at hx
            rcases List.mem_cons.mp hx with rfl | hx
            · have := outcome_short ho
              simpa using this
            · exact i4 x hx
      · rcases hr with ⟨rfl, -, rfl⟩ | ⟨g, gone, hg, ho, rfl⟩
        · exact i5
        · cases ho with
          | reply m r hs hd ha hr =>
            rw [drop_taken i1 hg i2, List.filterMap_cons_some (b := m) (by simp [usable, hs, hd, ha])]
            exact .cons hr i5
          | unacceptable m hs hd ha =>
            rw [drop_taken i1 hg i2, List.filterMap_cons_none (by simp [usable, hs, hd, ha])]
            exact i5
          | foreign hs =>
            rw [drop_taken i1 hg i2, List.filterMap_cons_none (by simp [usable, hs])]
            exact i5
          | short hs hd => exact i5
      · intro x hx
        rcases List.mem_cons.mp hx with hx | hx
        · injection hx with hx
          rcases hr with ⟨rfl, -, rfl⟩ | ⟨g, gone, hg, ho, rfl⟩
          · left; injection hx
          · cases ho with
            | reply => cases hx
            | unacceptable => left; injection hx
            | foreign => left; injection hx
            | short hs hd =>
              right
              have hsh := (outcome_short (.short hs hd)).1 rfl
              have hg' : gs'[n]? = some g := by
                obtain ⟨t, rfl⟩ := i1
                rw [List.getElem?_append_left (List.getElem?_eq_some_iff.mp hg).1, hg]
              have hn : n' = n := by
                simp only [Bool.false_eq_true, if_false] at i2 i4
                rcases Nat.lt_or_ge n n' with hlt | hge
                · have := i4 g (by
                    rw [List.mem_iff_getElem?]
                    exact ⟨0, by rw [List.getElem?_drop, List.getElem?_take_of_lt (by omega)]; exact hg'⟩)
                  rw [hsh] at this; cases this
                · omega
              subst hn
              exact ⟨by injection hx, g, hg', hsh⟩
        · exact i6 x hx
      · intro xs ys gs0 e0 hf hx
        cases xs with
        | nil =>
          have := frames_inj hf h.queue.fit (hx.symm.trans h.queue.recv)
          subst this
          have e1 : asked ys = asked as + 1 := by rw [show ys = _ from e0.symm]; rfl
          omega
        | cons x xs => exact hsplit x xs ys gs0 e0 hf hx

theorem keepsWhole_setup (k fuel : Nat) (c : Client) : KeepsWhole k (setupSocket false fuel worldBus c) := by
  have hc := closedWhole' k
  unfold setupSocket
  refine .bind (hc.bind _ _ (hc.read _ _ _) fun _ => hc.pure _) fun _ => .bind (hc.write _ _ _ trivial) fun _ =>
    .bind (hc.write _ _ _ trivial) fun _ => .bind (closed_close (closedWhole c.sn k)) fun _ =>
    .bind (closed_udpBind (closedWhole c.sn k) _ _ _) fun _ => closed_setSnDest (closedWhole c.sn k) _

/-- After `setup_socket`. -/
theorem setup_ready {fuel : Nat} {c : Client} {w w1 : World} (hz : Sizes w.chip c.sn.idx) (hw : WholeDatagrams c.sn.idx w)
    (h : setupSocket false fuel worldBus c w = (.ok (), w1)) :
    w1.chip.sent = w.chip.sent ∧ ∃ base gs, SntpReady c w1 gs 0 base := by
  have hw1 := keepsWhole_setup c.sn.idx fuel c w hw
  rw [h] at hw1
  have hks : KeepsSize c.sn.idx (setupPre c) :=
    .bind (fun w => ⟨tick_rxSize w _, tick_txSize w _⟩) fun _ => .bind (keepsSize_setSimr _ _) fun _ =>
    .bind (keepsSize_setSnImr _ _) fun _ => keepsSize_setStatusCmd c.sn .close 0x00 fun _ => rfl
  obtain ⟨hsent, -⟩ := C41_setup_request false fuel c w w1 hz h
  rw [setupSocket_eq, M.bind_run] at h
  have k1 := hks w
  rcases hp : setupPre c w with ⟨e | _, w0⟩ <;> rw [hp] at h k1 <;> dsimp only at h k1
  · cases h
  rw [M.bind_run] at h
  have hz0 : Sizes w0.chip c.sn.idx := ⟨by rw [k1.1]; exact hz.rx_dvd, by rw [k1.1]; exact hz.rx_lt,
    by rw [k1.2]; exact hz.tx_dvd, by rw [k1.2]; exact hz.tx_lt⟩
  rcases hb : udpBind false fuel worldBus c.sn c.port w0 with ⟨e | _, w0'⟩ <;> rw [hb] at h <;> dsimp only at h
  · cases h
  have hf := udpBind_fresh hz0 hb
  obtain ⟨base, hb0⟩ := hf.rx.at
  have hfr := keepsFresh_setSnDest c.sn c.server w0' base hb0 hf.tx
  rw [h] at hfr
  rw [run_setSnDest] at h
  cases h
  obtain ⟨gs, g1, g2⟩ := hw1.past
  exact ⟨hsent, base, gs, ⟨hw1, g1, g2, Nat.zero_le _, hfr.1⟩, hfr.2, setDest_ip .., Verif.setDest_port ..⟩

theorem acts_append (c : Client) (xs ys : List Act) (w : World) :
    acts c (xs ++ ys) w = ((acts c xs w).1 ++ (acts c ys (acts c xs w).2).1, (acts c ys (acts c xs w).2).2) := by
  induction xs generalizing w with
  | nil => rfl
  | cons a xs ih => simp only [List.cons_append, acts, ih]

/-- C112: a session, in a release build.  After `setup_socket`, requests are sent and replies asked for, in any order and any number, while whole datagrams
from anybody arrive at any time.  The datagrams received are consumed in the order received, up to some point before which there is no
datagram from the server that is too short for a message.  The replies the application gets are those of the acceptable messages from the server among
the datagrams consumed: each once, in order, none left out and none made up.  When there is no reply the result is `WouldBlock`, except that
it is `UnexpectedEof` if the datagram now first in the queue is a short one from the server.  What is sent is one request to the server for each
request that was accepted; one is refused only if fewer than 48 bytes are free.  Asking is enough: of the datagrams received at some time, those before the first short one
are consumed once the application has asked that many times after it. -/
theorem C112_session (fuel : Nat) (c : Client) (w w1 : World) (as : List Act) (hz : Sizes w.chip c.sn.toU8.toNat)
    (hw : WholeDatagrams c.sn.toU8.toNat w) (h : setupSocket false fuel worldBus c w = (.ok (), w1))
    (ha : ∀ a ∈ as, WholeSteps c.sn.toU8.toNat a.steps) :
    let dones := (acts c as w1).1
    let w2 := (acts c as w1).2
    ∃ gs n, Fit gs ∧ w2.chip.received c.sn.toU8.toNat = frames gs ∧ n ≤ gs.length ∧
      RxState w2.chip c.sn.toU8.toNat (frames (gs.take n)).length ∧
      (∀ g ∈ gs.take n, short c.server g = false) ∧
      SaysAll (replies dones) ((gs.take n).filterMap (usable c.server)) ∧
      (∀ e, Done.got (.error e) ∈ dones → e = .wouldBlock ∨ (e = .unexpectedEof ∧ ∃ g, gs[n]? = some g ∧ short c.server g = true)) ∧
      (∃ payload, payload.length = 48 ∧ Spec.Sntp.decode payload = some requestMessage4330 ∧
        w2.chip.sent = w.chip.sent ++ List.replicate (accepted dones) ⟨c.sn.toU8.toNat, c.server.ip.octets, c.server.port.toNat, payload⟩) ∧
      (∀ xs before during ys e, as = xs ++ .request before during :: ys →
        (request worldBus c ((acts c xs w1).2.pause before during)).1 = .error e →
        ((acts c xs w1).2.pause before during).chip.txFsr c.sn.toU8.toNat < 48) ∧
      (∀ xs ys gs0, as = xs ++ ys → Fit gs0 → (acts c xs w1).2.chip.received c.sn.toU8.toNat = frames gs0 →
        min (beforeShort c.server gs0) (asked ys) ≤ n) := by
  intro dones w2
  obtain ⟨hsent, base, gs0, hr⟩ := setup_ready hz hw h
  obtain ⟨gs, n, h1, -, h3, h4, h5, h6, h7, -, h9⟩ := sntp_session c base as w1 gs0 0 hr ha
  refine ⟨gs, n, h3.queue.fit, h3.queue.recv, h3.queue.le, h3.queue.rx.state, h4, h5, h6, ⟨requestPkt, by decide, by decide +kernel, ?_⟩, ?_, h9⟩
  · show (acts c as w1).2.chip.sent = _
    rw [h7, hsent]
  · intro xs before during ys e e0 he
    subst e0
    obtain ⟨gs1, n1, -, -, j3, -⟩ := sntp_session c base xs w1 gs0 0 hr fun a hx => ha a (List.mem_append_left _ hx)
    obtain ⟨⟨gs2, -, r2⟩, -⟩ := j3.pause (ha (.request before during) (List.mem_append_right _ (List.mem_cons_self ..)))
    obtain ⟨r, w', gs3, k1, -, -, k2⟩ := sntp_request r2
    rw [k1] at he
    rcases k2 with ⟨rfl, -⟩ | ⟨-, -, k2⟩
    · cases he
    · exact k2

/-- A session: a request, a stray datagram and the reply, a second request that is answered by a short datagram. -/
def sntpDay : List Act :=
  [.request [] [], .recv [] [], .recv [.arrive 5 (frames [⟨⟨⟨10, 0, 0, 2⟩, 123⟩, [1, 2]⟩, sntpReply])] [], .recv [] [[.free 5 48]],
   .request [] [[], [.arrive 5 (frames [sntpShort])]], .recv [] []]
def sntpStart : World := queueWorld [0, 0, 0, 0] []
def sntpDone : List Done × World := acts sntpClient sntpDay (setupSocket false 2 worldBus sntpClient sntpStart).2

/-- The hypotheses of `C112_session` are met. -/
example : (setupSocket false 2 worldBus sntpClient sntpStart).1 = .ok () ∧ Sizes sntpStart.chip 5 ∧ WholeDatagrams 5 sntpStart ∧
    ∀ a ∈ sntpDay, WholeSteps 5 a.steps := by
  refine ⟨by decide +kernel, ⟨by decide +kernel, by decide +kernel, by decide +kernel, by decide +kernel⟩, ⟨⟨[], nofun, rfl⟩, nofun⟩, ?_⟩
  intro a ha es he bs hb
  simp only [sntpDay, List.mem_cons, List.not_mem_nil, or_false] at ha
  rcases ha with rfl | rfl | rfl | rfl | rfl | rfl <;> simp [Act.steps] at he <;> (try rcases he with rfl | rfl) <;> (try subst he) <;>
    simp at hb <;> subst hb <;> exact ⟨_, by unfold Fit; decide, rfl⟩

/-- What comes of it: one reply, two requests sent, and a short datagram that stays. -/
example : (replies sntpDone.1).map (·.transmitTimestamp) = [0xE5FD822600000002] ∧ accepted sntpDone.1 = 2 ∧
    sntpDone.2.chip.sent.length = 2 ∧ sntpDone.2.chip.unread 5 = frames [sntpShort] := by
  decide +kernel

end Verif.Thm
