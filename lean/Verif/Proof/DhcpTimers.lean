import Verif.Proof.DhcpInv
import Verif.Proof.Calm
import Verif.Thm.DhcpOptions
/-!
# What the parts of `process` do to the client
-/
namespace Verif
open Hl Spec Dhcp

section
variable {σ : Type} {b : Bus σ}

/-- The client after `discover` has begun. -/
def restarted (c : Client) : Client := { c with ip := .unspecified, xid := c.rand.nextU32.1, rand := c.rand.nextU32.2 }

/-- The client after `request`. -/
def rexid (c : Client) : Client := { c with xid := c.rand.nextU32.1, rand := c.rand.nextU32.2 }

theorem restarted_eq (c : Client) : ∃ x r, restarted c = { c with ip := .unspecified, xid := x, rand := r } := ⟨_, _, rfl⟩
theorem rexid_eq (c : Client) : ∃ x r, rexid c = { c with xid := x, rand := r } := ⟨_, _, rfl⟩

theorem hasLease_congr {c c' : Client} (h : c'.state = c.state) : c'.hasLease = c.hasLease := by
  unfold Client.hasLease; rw [h]

theorem onBus_client {α : Type} (m : M σ α) (s : σ × Client) : (onBus m s).2.2 = s.2 := rfl

/-- The client stays as it is in the continuation. -/
theorem bind_onBus {α β : Type} (m : M σ α) (f : α → M (σ × Client) β) (s : σ) (c : Client) :
    (onBus m >>= f) (s, c) = match m s with
      | (.ok a, s') => f a (s', c)
      | (.error e, s') => (.error e, (s', c)) := by
  rw [M.bind_run]
  unfold onBus
  simp only
  rcases m s with ⟨e | a, s'⟩ <;> rfl

theorem modGet {α : Type} (f : Client → Client) (g : Client → M (σ × Client) α) (s : σ) (c : Client) :
    (modC f >>= fun _ => getC >>= g) (s, c) = g (f c) (s, f c) := rfl

theorem discover_run (dbg : Bool) (fuel : Nat) (secs : UInt32) (s : σ) (c : Client) :
    discover dbg fuel b secs (s, c) =
      (onBus (b.setSipr (restarted c).ip) >>= fun _ =>
       onBus (udpBind dbg fuel b (restarted c).sn (restarted c).srcPort) >>= fun _ =>
       onBus (sendDhcpDiscover dbg b (restarted c).sn (restarted c).mac (restarted c).hostname (restarted c).xid (restarted c).broadcastAddr) >>= fun _ =>
       modC (Client.setStateWithTimeout .selecting secs)) (s, restarted c) := by
  unfold discover
  exact modGet restarted _ s c

theorem request_run (s : σ) (c : Client) :
    request b (s, c) = onBus (sendDhcpRequest b (rexid c).sn (rexid c).mac (rexid c).ip (rexid c).hostname (rexid c).serverId (rexid c).xid)
      (s, rexid c) := by
  unfold request
  exact modGet rexid _ s c

theorem discover_client (dbg : Bool) (fuel : Nat) (secs : UInt32) (s : σ) (c : Client) :
    ((discover dbg fuel b secs (s, c)).1 = .ok () ∧
      (discover dbg fuel b secs (s, c)).2.2 = (restarted c).setStateWithTimeout .selecting secs) ∨
    (∃ e, (discover dbg fuel b secs (s, c)).1 = .error e) ∧ (discover dbg fuel b secs (s, c)).2.2 = restarted c := by
  rw [discover_run, bind_onBus]
  generalize restarted c = c1
  rcases b.setSipr c1.ip s with ⟨e | _, s1⟩
  · exact .inr ⟨⟨_, rfl⟩, rfl⟩
  · dsimp only
    rw [bind_onBus]
    rcases udpBind dbg fuel b c1.sn c1.srcPort s1 with ⟨e | _, s2⟩
    · exact .inr ⟨⟨_, rfl⟩, rfl⟩
    · dsimp only
      rw [bind_onBus]
      rcases sendDhcpDiscover dbg b c1.sn c1.mac c1.hostname c1.xid c1.broadcastAddr s2 with ⟨e | _, s3⟩
      · exact .inr ⟨⟨_, rfl⟩, rfl⟩
      · exact .inl ⟨rfl, rfl⟩

theorem request_client (s : σ) (c : Client) :
    request b (s, c) = ((sendDhcpRequest b (rexid c).sn (rexid c).mac (rexid c).ip (rexid c).hostname (rexid c).serverId (rexid c).xid s).1,
      ((sendDhcpRequest b (rexid c).sn (rexid c).mac (rexid c).ip (rexid c).hostname (rexid c).serverId (rexid c).xid s).2, rexid c)) := by
  rw [request_run]; rfl

/-- What the timers do. -/
def timerAction (dbg : Bool) (fuel : Nat) (b : Bus σ) (secs : UInt32) : Option DhcpTimer → M (σ × Client) Unit
  | none => pure ()
  | some .restart => discover dbg fuel b secs
  | some .rebind => request b >>= fun _ => modC (Client.setState .rebinding)
  | some .renew => request b >>= fun _ => modC (Client.setState .renewing)

theorem timers_due (dbg : Bool) (fuel : Nat) (secs : UInt32) (s : σ) (c : Client) :
    timers dbg fuel b secs (s, c) = timerAction dbg fuel b secs (dueTimer c secs) (s, c) ∨
    (dbg = true ∧ timers dbg fuel b secs (s, c) = (.error .panic, (s, c)) ∧ ∃ t, c.stateTimeout = some t ∧ secs < t) := by
  have hg : (getC : M (σ × Client) Client) (s, c) = (.ok c, (s, c)) := rfl
  unfold timers
  rw [M.bind_ok hg]
  unfold Client.timeoutElapsed dueTimer
  rcases ht : c.stateTimeout with _ | t
  · left
    dsimp only
    rw [M.bind_ok (show (M.ofExcept (.ok none : Except Err (Option UInt32)) : M (σ × Client) _) (s, c) = (.ok none, (s, c)) from rfl)]
    dsimp only
    rcases hs : c.state <;> dsimp only
    · rfl
    · rfl
    · rfl
    all_goals
      unfold leaseTimers
      rw [M.bind_ok hg]
      by_cases h1 : c.lease < secs - c.leaseSecs
      · rw [if_pos h1, if_pos h1]; rfl
      · rw [if_neg h1, if_neg h1]
        by_cases h2 : c.t2 < secs - c.leaseSecs
        · simp only [hs, gt_iff_lt, h2, true_and, if_true, reduceCtorEq, or_false, or_true, or_self, if_false, false_or, and_false, and_true]
          try rfl
        · simp only [hs, gt_iff_lt, h2, false_and, if_false, reduceCtorEq, and_false]
          try rfl
          try (by_cases h3 : c.t1 < secs - c.leaseSecs <;> simp only [h3, true_and, if_true, false_and, if_false] <;> rfl)
  · dsimp only
    by_cases hp : dbg = true ∧ secs < t
    · right
      rw [if_pos hp]
      exact ⟨hp.1, rfl, t, rfl, hp.2⟩
    · left
      rw [if_neg hp, M.bind_ok (show (M.ofExcept (.ok (some (secs - t)) : Except Err (Option UInt32)) : M (σ × Client) _) (s, c) =
        (.ok (some (secs - t)), (s, c)) from rfl)]
      dsimp only
      by_cases h : c.timeout < secs - t
      · rw [if_pos h, if_pos h]; rfl
      · rw [if_neg h, if_neg h]; rfl

/-- The client after a timer. -/
def timerClients (c : Client) (secs : UInt32) : Option DhcpTimer → List Client
  | none => [c]
  | some .restart => [restarted c, (restarted c).setStateWithTimeout .selecting secs]
  | some .rebind => [rexid c, (rexid c).setState .rebinding]
  | some .renew => [rexid c, (rexid c).setState .renewing]

/-- What a timer may do to the client. -/
theorem timerAction_client (dbg : Bool) (fuel : Nat) (secs : UInt32) (t : Option DhcpTimer) (s : σ) (c : Client) :
    (timerAction dbg fuel b secs t (s, c)).2.2 ∈ timerClients c secs t := by
  rcases t with _ | _ | _ | _
  · exact List.mem_cons_self
  · show (discover dbg fuel b secs (s, c)).2.2 ∈ [_, _]
    rcases discover_client (b := b) dbg fuel secs s c with h | h <;> rw [h.2] <;> simp
  all_goals
    show ((request b >>= _ : M (σ × Client) Unit) (s, c)).2.2 ∈ [_, _]
    rw [M.bind_run, request_client]
    generalize rexid c = c1
    rcases (sendDhcpRequest b c1.sn c1.mac c1.ip c1.hostname c1.serverId c1.xid s).1 with e | _
    · simp
    · simp [modC]

theorem dueTimer_lease {c : Client} {secs : UInt32} {t : DhcpTimer} (h : dueTimer c secs = some t) (ht : t ≠ .restart) :
    c.hasLease = true := by
  unfold dueTimer at h
  unfold Client.hasLease
  rcases hst : c.stateTimeout with _ | to <;> rw [hst] at h <;> dsimp only at h
  · rcases hs : c.state <;> rw [hs] at h <;> dsimp only at h ⊢
    · cases h; exact absurd rfl ht
    · cases h
    · cases h
  · split at h
    · cases h; exact absurd rfl ht
    · cases h

end

theorem run_check_foreign {d : Bytes} {xid : UInt32} (h : ¬ HasXid d xid) :
    (∃ cur, (checkProg xid).run cursorOps ⟨d, 0⟩ = (.ok false, cur)) ∨
    ∃ cur, (checkProg xid).run cursorOps ⟨d, 0⟩ = (.error .unexpectedEof, cur) := by
  unfold checkProg isBootreply pktXid
  by_cases h1 : 1 ≤ d.length
  · rw [RProg.bind_ok (a := decide ((d.drop 0).take 1 = [1])) (s' := ⟨d, 0 + 1⟩) (by
      rw [RProg.bind_ok (cur_seekStart (o := 0) (by simp)), RProg.bind_ok (cur_readExact (by show 1 ≤ d.length - 0; omega))]
      rfl)]
    by_cases hb : decide ((d.drop 0).take 1 = [1]) = true
    · rw [hb]; exact .inl ⟨_, rfl⟩
    · rw [Bool.not_eq_true] at hb
      rw [hb]
      rw [if_neg (by simp)]
      by_cases h4 : 4 ≤ d.length
      · by_cases h8 : 8 ≤ d.length
        · left
          rw [RProg.bind_ok (a := quadU32 (quad ((d.drop 4).take 4))) (s' := ⟨d, 4 + 4⟩) (by
            rw [RProg.bind_ok (cur_seekStart (o := 4) (by simpa using h4)), RProg.bind_ok (cur_readExact (by show 4 ≤ d.length - 4; omega))]
            rfl)]
          refine ⟨⟨d, 4 + 4⟩, ?_⟩
          have : decide (quadU32 (quad ((d.drop 4).take 4)) = xid) = false := by
            simp only [decide_eq_false_iff_not]
            intro e
            refine h ⟨h8, ?_⟩
            have := Thm.quad_num (x := (d.drop 4).take 4) (by simp; omega)
            rw [← e, this]; rfl
          rw [this]; rfl
        · right
          rw [RProg.bind_error (e := .unexpectedEof) (s' := ⟨d, 4⟩) (by
            rw [RProg.bind_ok (cur_seekStart (o := 4) (by simpa using h4)), RProg.bind_error (cur_readExact_eof (by show ¬ 4 ≤ d.length - 4; omega))]
            rfl)]
          exact ⟨_, rfl⟩
      · right
        rw [RProg.bind_error (e := .unexpectedEof) (s' := ⟨d, 0 + 1⟩) (by
          rw [RProg.bind_error (cur_seekStart_eof (o := 4) (by simpa using h4))])]
        exact ⟨_, rfl⟩
  · right
    rw [RProg.bind_error (e := .unexpectedEof) (s' := ⟨d, 0⟩) (by
      rw [RProg.bind_ok (cur_seekStart (o := 0) (by simp)), RProg.bind_error (cur_readExact_eof (by show ¬ 1 ≤ d.length - 0; omega))]
      rfl)]
    exact ⟨_, rfl⟩

/-- The reader never says that a complete datagram is truncated. -/
theorem UR.not_truncated {w : World} {u : UdpReader} {sn : Sn} {d : Bytes} {pos base p : Nat} (h : UR w u sn d pos base p) :
    ¬ u.header.len > u.inner.streamLen := by
  intro hlt
  have := h.rel.streamLen
  have h2 := h.len
  simp only at this
  have hlt' : u.inner.streamLen.toNat < u.header.len.toNat := hlt
  omega

/-- With foreign packets only, `recv` finds nothing. -/
theorem recv_foreign (dbg : Bool) (sn : Sn) (xid : UInt32) (base p : Nat) (w : World) (hb : RxAt w.chip sn.idx base p)
    (hp : Pending (fun g => ¬ HasXid g.payload xid) sn.idx p w) :
    ∃ w1, Later w w1 ∧ (recv dbg worldBus sn xid w = (.ok none, w1) ∨ ∃ e, recv dbg worldBus sn xid w = (.error e, w1)) := by
  unfold recv
  rcases udpReader_pending dbg sn base p w hb hp with ⟨u, w1, g, h1, h2, h3, h4, -⟩ | ⟨w1, h1, h2⟩ | ⟨-, w1, h1, h2⟩
  · rw [h1]
    show ∃ w1', Later w w1' ∧ (recvCheck worldBus u xid w1 = _ ∨ ∃ e, recvCheck worldBus u xid w1 = _)
    unfold recvCheck
    rw [if_neg h4.not_truncated]
    rcases run_check_foreign h3 with ⟨cur, hc⟩ | ⟨cur, hc⟩
    · have := h4.run (checkProg xid)
      rw [hc] at this
      obtain ⟨w', u', e1, e2, _⟩ := this
      refine ⟨w', h2.trans e2, .inl ?_⟩
      rw [M.bind_ok e1]; rfl
    · obtain ⟨w', e1, e2⟩ := h4.run_error hc
      refine ⟨w', h2.trans e2, .inr ⟨.unexpectedEof, ?_⟩⟩
      rw [M.bind_error e1]
  · rw [h1]; exact ⟨w1, h2, .inl rfl⟩
  · rw [h1]; exact ⟨w1, h2, .inr ⟨_, rfl⟩⟩

theorem clearIr_calm (sn : Sn) (w : World) : ∃ w1, clearIr worldBus sn w = (.ok (), w1) ∧ Calm sn.idx w w1 := by
  unfold clearIr
  have hir : ∃ ir, worldBus.snIr sn w = (.ok ir, w.tick) := ⟨_, rfl⟩
  obtain ⟨ir, hir⟩ := hir
  rw [M.bind_ok hir]
  by_cases h : ir.anyRaised = true
  · obtain ⟨w1, h1, h2⟩ := calm_setSnIr sn ir.raw w.tick
    exact ⟨w1, by rw [if_pos h]; exact h1, (calm_tick _ w).trans h2⟩
  · exact ⟨w.tick, by rw [if_neg h]; rfl, calm_tick _ w⟩

theorem linkDown_calm (c : Client) (w : World) : ∃ b w1, linkDown worldBus c w = (.ok b, w1) ∧ Later w w1 ∧
    (c.state ≠ .init → b = false ∧ w1 = w) := by
  unfold linkDown
  by_cases h : c.state = .init
  · rw [if_pos h]
    exact ⟨_, _, rfl, .tick w, fun h' => absurd h h'⟩
  · rw [if_neg h]
    exact ⟨false, w, rfl, .refl w, fun _ => ⟨rfl, rfl⟩⟩

/-- `process` up to the packets. -/
theorem process_run (dbg : Bool) (fuel n : Nat) (secs : UInt32) (w : World) (c : Client) :
    ∃ w1, Calm c.sn.idx w w1 ∧
    ((c.state = .init ∧ process dbg fuel n worldBus secs (w, c) = (.ok 1, (w1, c))) ∨
     process dbg fuel n worldBus secs (w, c) = (packets dbg fuel worldBus secs n >>= fun r => match r with
      | some v => pure v
      | none => timers dbg fuel worldBus secs >>= fun _ => getC >>= fun c => M.ofExcept (c.nextCall dbg secs)) (w1, c)) := by
  obtain ⟨w1, h1, h2⟩ := clearIr_calm c.sn w
  obtain ⟨b, w2, h3, h4, h5⟩ := linkDown_calm c w1
  refine ⟨w2, h2.trans (h4.calm _), ?_⟩
  unfold process
  rw [M.bind_ok (show getC (w, c) = (.ok c, (w, c)) from rfl), bind_onBus, h1]
  dsimp only
  rw [bind_onBus, h3]
  dsimp only
  cases b with
  | true =>
    left
    refine ⟨?_, rfl⟩
    by_cases h : c.state = .init
    · exact h
    · exact absurd (h5 h).1 (by decide)
  | false => right; rfl

/-- With foreign packets only, nothing but the timers changes the client. -/
theorem process_foreign (dbg : Bool) (fuel n : Nat) (secs : UInt32) (w : World) (c : Client) (base p : Nat)
    (hb : RxAt w.chip c.sn.idx base p) (hp : Pending (fun g => ¬ HasXid g.payload c.xid) c.sn.idx p w) :
    (process dbg fuel n worldBus secs (w, c)).2.2 = c ∨
    ∃ w', (process dbg fuel n worldBus secs (w, c)).2.2 = (timers dbg fuel worldBus secs (w', c)).2.2 := by
  obtain ⟨w1, hc, ⟨-, h⟩ | h⟩ := process_run dbg fuel n secs w c <;> rw [h]
  · exact .inl rfl
  · cases n with
    | zero => exact .inl rfl
    | succ n =>
      obtain ⟨w2, -, h2 | ⟨e, h2⟩⟩ := recv_foreign dbg c.sn c.xid base p w1 (hc.rx _ _ hb) (hc.pending _ _ hp)
      · have hpk : packets dbg fuel worldBus secs (n + 1) (w1, c) = (.ok none, (w2, c)) := by
          unfold packets
          rw [M.bind_ok (show getC (w1, c) = (.ok c, (w1, c)) from rfl), bind_onBus, h2]
          rfl
        right
        rw [M.bind_ok hpk]
        refine ⟨w2, ?_⟩
        dsimp only
        rw [M.bind_run]
        rcases timers dbg fuel worldBus secs (w2, c) with ⟨e | _, s⟩
        · rfl
        · dsimp only
          rw [M.bind_ok (show getC s = (.ok s.2, s) from rfl)]
          cases s.2.nextCall dbg secs <;> rfl
      · have hpk : packets dbg fuel worldBus secs (n + 1) (w1, c) = (.error e, (w2, c)) := by
          unfold packets
          rw [M.bind_ok (show getC (w1, c) = (.ok c, (w1, c)) from rfl), bind_onBus, h2]
        left
        rw [M.bind_error hpk]

end Verif
