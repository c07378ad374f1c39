import Verif.Thm.DhcpLease
import Verif.Proof.DhcpAck
import Verif.Thm.DhcpMsg
/-!
# C37, C38: the timers of a lease
-/
namespace Verif.Thm
open Verif Hl Spec Dhcp

/-! ## C38 -/

section
variable {σ : Type} {b : Bus σ}

/-- If the program says to return early with a number, that number is `next_call` of the client as it then is. -/
def Asks (dbg : Bool) (secs : UInt32) (m : M (σ × Client) (Option UInt32)) : Prop :=
  ∀ s v s', m s = (.ok (some v), s') → s'.2.nextCall dbg secs = .ok v

theorem Asks.bind {dbg : Bool} {secs : UInt32} {α : Type} {m : M (σ × Client) α} {f : α → M (σ × Client) (Option UInt32)}
    (h : ∀ a, Asks dbg secs (f a)) : Asks dbg secs (m >>= f) := by
  intro s v s' e
  rw [M.bind_run] at e
  rcases hm : m s with ⟨e' | a, s1⟩ <;> rw [hm] at e
  · cases e
  · exact h a s1 v s' e

theorem asks_none (dbg : Bool) (secs : UInt32) : Asks dbg secs (pure none : M (σ × Client) (Option UInt32)) := by
  intro s v s' e; cases e

theorem asks_next (dbg : Bool) (secs : UInt32) (s : σ × Client) (v : UInt32) (s' : σ × Client)
    (e : (M.ofExcept ((s.2.nextCall dbg secs).map some) : M (σ × Client) _) s = (.ok (some v), s')) :
    s'.2.nextCall dbg secs = .ok v := by
  rcases hn : s.2.nextCall dbg secs with x | x <;> rw [hn] at e <;> cases e
  exact hn

theorem Asks.get {dbg : Bool} {secs : UInt32} {f : Client → M (σ × Client) (Option UInt32)}
    (h : ∀ s v s', f s.2 s = (.ok (some v), s') → s'.2.nextCall dbg secs = .ok v) : Asks dbg secs (getC >>= f) :=
  fun s v s' e => h s v s' e

theorem asks_ackGateway (dbg : Bool) (secs : UInt32) (o : AckOpts) : Asks dbg secs (ackGateway dbg b secs o) := by
  unfold ackGateway
  refine .get fun s v s' => ?_
  cases o.gateway with
  | some g => exact (Asks.bind fun _ => .bind fun _ => asks_none dbg secs) s v s'
  | none =>
    dsimp only
    split
    · exact (Asks.bind fun _ => asks_none dbg secs) s v s'
    · exact asks_next dbg secs s v s'

theorem asks_ackMask (dbg : Bool) (secs : UInt32) (o : AckOpts) : Asks dbg secs (ackMask dbg b secs o) := by
  unfold ackMask
  refine .get fun s v s' => ?_
  cases o.mask with
  | some g => exact (Asks.bind fun _ => asks_ackGateway dbg secs o) s v s'
  | none =>
    dsimp only
    split
    · exact asks_ackGateway dbg secs o s v s'
    · exact asks_next dbg secs s v s'

theorem asks_onAck (dbg : Bool) (secs : UInt32) (u : UdpReader) (cache : Cache) : Asks dbg secs (onAck dbg b secs u cache) := by
  unfold onAck
  refine .bind fun r => ?_
  split
  · exact .get fun s v s' => asks_next dbg secs s v s'
  · exact .bind fun _ => .bind fun _ => asks_ackMask dbg secs _

theorem asks_handle (dbg : Bool) (fuel : Nat) (secs : UInt32) (u : UdpReader) : Asks dbg secs (handle dbg fuel b secs u) := by
  unfold handle
  refine .get fun s v s' => ?_
  have hr : Asks dbg secs (onReply dbg fuel b secs u) := by
    unfold onReply
    refine .bind fun r => ?_
    split
    · exact asks_onAck dbg secs _ _
    · exact .bind fun _ => .bind fun _ => asks_none dbg secs
    · exact .bind fun _ => asks_none dbg secs
  cases s.2.state with
  | selecting => exact (Asks.bind fun _ => asks_none dbg secs) s v s'
  | requesting | renewing | rebinding => exact hr s v s'
  | _ => exact (Asks.bind fun _ => asks_none dbg secs) s v s'

theorem asks_packets (dbg : Bool) (fuel : Nat) (secs : UInt32) (n : Nat) : Asks dbg secs (packets dbg fuel b secs n) := by
  induction n with
  | zero => intro s v s' e; cases e
  | succ n ih =>
    unfold packets
    refine .bind fun c => .bind fun r => ?_
    cases r with
    | none => exact asks_none dbg secs
    | some u =>
      intro s v s' e
      change (handle dbg fuel b secs u >>= _) s = _ at e
      rw [M.bind_run] at e
      rcases hm : handle dbg fuel b secs u s with ⟨e' | a, s1⟩ <;> rw [hm] at e
      · cases e
      · cases a with
        | none => exact ih s1 v s' e
        | some x => cases e; exact asks_handle dbg fuel secs u s _ _ hm

/-- C38: when `process` succeeds, the client had not started and the link is down (then it is to be called in a
second), or the number returned is `next_call` of the client as `process` leaves it. -/
theorem C38_process (dbg : Bool) (fuel n : Nat) (secs v : UInt32) (s s' : σ × Client)
    (h : process dbg fuel n b secs s = (.ok v, s')) :
    (s.2.state = .init ∧ v = 1 ∧ s'.2 = s.2) ∨ s'.2.nextCall dbg secs = .ok v := by
  obtain ⟨s, c⟩ := s
  unfold process at h
  rw [M.bind_ok (show getC (s, c) = (.ok c, (s, c)) from rfl), bind_onBus] at h
  rcases hc : clearIr b c.sn s with ⟨e | _, s1⟩ <;> rw [hc] at h
  · cases h
  · dsimp only at h
    rw [bind_onBus] at h
    rcases hl : linkDown b c s1 with ⟨e | down, s2⟩ <;> rw [hl] at h
    · cases h
    · dsimp only at h
      cases down with
      | true =>
        left
        cases h
        refine ⟨?_, rfl, rfl⟩
        unfold linkDown at hl
        by_cases hi : c.state = .init
        · exact hi
        · rw [if_neg hi] at hl; cases hl
      | false =>
        right
        rw [if_neg (by decide), M.bind_run] at h
        rcases hp : packets dbg fuel b secs n (s2, c) with ⟨e | r, s3⟩ <;> rw [hp] at h
        · cases h
        · cases r with
          | some x => cases h; exact asks_packets dbg fuel secs n _ _ _ hp
          | none =>
            dsimp only at h
            rw [M.bind_run] at h
            rcases ht : timers dbg fuel b secs s3 with ⟨e | _, s4⟩ <;> rw [ht] at h
            · cases h
            · dsimp only at h
              rw [M.bind_ok (show getC s4 = (.ok s4.2, s4) from rfl)] at h
              rcases hn : s4.2.nextCall dbg secs with e | x <;> rw [hn] at h <;> cases h
              exact hn

end

/-- The times of the lease are in order, as far as they are still to come, and the clock has not wrapped since they
were set. -/
def InOrder (c : Client) (secs : UInt32) : Prop :=
  c.stateTimeout = none → c.leaseSecs ≤ secs ∧ (c.state = .bound → c.t1 ≤ c.t2 ∧ c.t1 ≤ c.lease) ∧ (c.state = .renewing → c.t2 ≤ c.lease)

theorem satSub_toNat (a b : UInt32) : (satSub a b).toNat = a.toNat - b.toNat := by
  unfold satSub
  split
  · rename_i h; have : a.toNat < b.toNat := h; simp; omega
  · rename_i h
    have : ¬ a.toNat < b.toNat := h
    rw [UInt32.toNat_sub]; have := a.toNat_lt; have := b.toNat_lt; omega

theorem u32_lt (a b : UInt32) : a < b ↔ a.toNat < b.toNat := Iff.rfl
theorem u32_le (a b : UInt32) : a ≤ b ↔ a.toNat ≤ b.toNat := Iff.rfl
theorem u32_sub (a b : UInt32) : (a - b).toNat = (a.toNat + 4294967296 - b.toNat) % 4294967296 := by
  rw [UInt32.toNat_sub]; have := a.toNat_lt; have := b.toNat_lt; omega

/-- C38 (the part that holds): no timer of a client that has started is due before the time `next_call` asks for,
provided that the times of the lease are in order and the clock has not wrapped since the lease was obtained.
Missing: both provisos are needed, see `C38_times_out_of_order` and `C38_clock_wrapped`. -/
theorem C38_never_late_partial (dbg : Bool) (c : Client) (t n t' : UInt32) (h : c.nextCall dbg t = .ok n) (hs : c.state ≠ .init)
    (ho : InOrder c t) (hle : t ≤ t') (hd : dueTimer c t' ≠ none) : t.toNat + n.toNat ≤ t'.toNat := by
  have b1 := t.toNat_lt
  have b2 := t'.toNat_lt
  rw [u32_le] at hle
  unfold Client.nextCall Client.timeoutElapsed at h
  unfold dueTimer at hd
  unfold InOrder at ho
  rcases hto : c.stateTimeout with _ | since <;> rw [hto] at h hd ho
  · obtain ⟨o1, o2, o3⟩ := ho rfl
    dsimp only at h hd
    rw [u32_le] at o1
    injection h with h
    subst h
    unfold Client.nextLeaseCall
    cases hst : c.state with
    | init => exact absurd hst hs
    | selecting => rw [hst] at hd; exact absurd rfl hd
    | requesting => rw [hst] at hd; exact absurd rfl hd
    | renewing =>
      have h2 := o3 hst
      rw [u32_le] at h2
      rw [hst] at hd
      simp only [satSub_toNat]
      dsimp only at hd
      split at hd
      · rename_i h; rw [u32_lt, u32_sub] at h; omega
      · split at hd
        · rename_i h; rw [u32_lt, u32_sub] at h; omega
        · exact absurd rfl hd
    | rebinding =>
      rw [hst] at hd
      simp only [satSub_toNat]
      dsimp only at hd
      split at hd
      · rename_i h; rw [u32_lt, u32_sub] at h; omega
      · exact absurd rfl hd
    | bound =>
      obtain ⟨h1, h2⟩ := o2 hst
      rw [u32_le] at h1 h2
      rw [hst] at hd
      simp only [satSub_toNat]
      dsimp only at hd
      split at hd
      · rename_i h; rw [u32_lt, u32_sub] at h; omega
      · split at hd
        · rename_i h; rw [u32_lt, u32_sub] at h; omega
        · split at hd
          · rename_i h; rw [u32_lt, u32_sub] at h; omega
          · exact absurd rfl hd
  · dsimp only at h hd
    by_cases hp : dbg = true ∧ t < since
    · rw [if_pos hp] at h; cases h
    · rw [if_neg hp] at h
      injection h with h
      subst h
      have b3 := since.toNat_lt
      rw [satSub_toNat, u32_sub]
      split at hd
      · rename_i h; rw [u32_lt, u32_sub] at h
        have := c.timeout.toNat_lt
        omega
      · exact absurd rfl hd

/-- C38: and it is not early either: one second later than asked for, a timer is due. -/
theorem C38_not_early (dbg : Bool) (c : Client) (t n t' : UInt32) (h : c.nextCall dbg t = .ok n)
    (hs : c.state = .bound ∨ c.state = .renewing ∨ c.state = .rebinding ∨ ∃ since ≤ t, c.stateTimeout = some since)
    (hw : c.stateTimeout = none → c.leaseSecs ≤ t) (hle : t'.toNat = t.toNat + n.toNat + 1) (ht : ∀ since, c.stateTimeout = some since → since ≤ t) :
    dueTimer c t' ≠ none := by
  have b1 := t.toNat_lt
  have b2 := t'.toNat_lt
  unfold Client.nextCall Client.timeoutElapsed at h
  unfold dueTimer
  rcases hto : c.stateTimeout with _ | since <;> rw [hto] at h hs ht hw
  · have o1 := hw rfl
    dsimp only at h ⊢
    rw [u32_le] at o1
    injection h with h
    subst h
    unfold Client.nextLeaseCall at hle
    cases hst : c.state with
    | init => simp
    | selecting | requesting => rw [hst] at hs; simp at hs
    | renewing =>
      rw [hst] at hle
      simp only [satSub_toNat] at hle
      dsimp only
      split
      · simp
      · rw [if_pos]
        · simp
        · rw [u32_lt, u32_sub]; omega
    | rebinding =>
      rw [hst] at hle
      simp only [satSub_toNat] at hle
      dsimp only
      rw [if_pos]
      · simp
      · rw [u32_lt, u32_sub]; omega
    | bound =>
      rw [hst] at hle
      simp only [satSub_toNat] at hle
      dsimp only
      split
      · simp
      · split
        · simp
        · rw [if_pos]
          · simp
          · rw [u32_lt, u32_sub]; omega
  · dsimp only at h ⊢
    have h1 := ht since rfl
    rw [u32_le] at h1
    by_cases hp : dbg = true ∧ t < since
    · rw [if_pos hp] at h; cases h
    · rw [if_neg hp] at h
      injection h with h
      subst h
      rw [satSub_toNat, u32_sub] at hle
      rw [if_pos]
      · simp
      · rw [u32_lt, u32_sub]; omega

/-- The hypotheses are met by a client with a lease of 1000 s obtained at time 50. -/
def leasedClient : Client :=
  { Client.new .sn5 1 ⟨2, 0, 17, 34, 51, 68⟩ [104] with state := .bound, ip := ⟨10, 10, 10, 10⟩, t1 := 500, t2 := 875, lease := 1000, leaseSecs := 50 }

example : leasedClient.nextCall true 100 = .ok 450 ∧ InOrder leasedClient 100 ∧ dueTimer leasedClient 550 = none ∧
    dueTimer leasedClient 551 = some .renew := by
  refine ⟨by decide +kernel, fun _ => by decide +kernel, by decide +kernel, by decide +kernel⟩

/-- C38 fails when the clock wraps while there is a lease: the elapsed time is then taken as 0, so that the call asked for
is 500 s away although the renewal is due in one. -/
theorem C38_clock_wrapped :
    ∃ (c : Client) (t n t' : UInt32), c.state = .bound ∧ c.t1 ≤ c.t2 ∧ c.t2 ≤ c.lease ∧ c.nextCall false t = .ok n ∧
      dueTimer c t = none ∧ t < t' ∧ dueTimer c t' = some .renew ∧ t'.toNat = t.toNat + 1 ∧ n = 500 :=
  ⟨{ leasedClient with leaseSecs := 0xFFFFFFFF - 399 }, 100, 500, 101, by decide +kernel, by decide +kernel, by decide +kernel, by decide +kernel,
    by decide +kernel, by decide +kernel, by decide +kernel, by decide +kernel, by decide +kernel⟩

/-! ## C37 -/

/-- Going from `(w, c)` to `(w', c')` the client did what the timer asks for: it restarted with a DISCOVER, has no address any
more and awaits an answer from now on; or it sent a REQUEST for its address and awaits an answer until the next timer.  Nothing
else was sent. -/
def Acted (t : DhcpTimer) (secs : UInt32) (w : World) (c : Client) (w' : World) (c' : Client) : Prop :=
  match t with
  | .restart =>
    c'.state = .selecting ∧ c'.stateTimeout = some secs ∧ c'.leasedIp = none ∧ w'.chip.ownIp = [0, 0, 0, 0] ∧
    ∃ payload, w'.chip.sent = w.chip.sent ++ [⟨c.sn.toU8.toNat, c.broadcastAddr.ip.octets, c.broadcastAddr.port.toNat, payload⟩] ∧
      Dhcp.decode payload = some (discoverMessage c.mac c.hostname c'.xid)
  | .renew | .rebind =>
    c'.state = (if t = .renew then .renewing else .rebinding) ∧ c'.stateTimeout = none ∧ c'.leasedIp = some c.ip ∧
    c'.t1 = c.t1 ∧ c'.t2 = c.t2 ∧ c'.lease = c.lease ∧ c'.leaseSecs = c.leaseSecs ∧
    ∃ payload, w'.chip.sent = w.chip.sent ++ [⟨c.sn.toU8.toNat, w.chip.destIp c.sn.toU8.toNat, w.chip.destPort c.sn.toU8.toNat, payload⟩] ∧
      Dhcp.decode payload = some (requestMessage c.mac c.ip c.hostname c.serverId c'.xid)

theorem Acted.of_calm {t : DhcpTimer} {secs : UInt32} {w0 w w' : World} {c c' : Client} (hc : TxCalm c.sn.idx w0 w)
    (h : Acted t secs w c w' c') : Acted t secs w0 c w' c' := by
  unfold Acted at h ⊢
  cases t <;> simp only at h ⊢
  · rw [hc.sent] at h; exact h
  all_goals
    have e1 : w.chip.destIp c.sn.toU8.toNat = w0.chip.destIp c.sn.toU8.toNat := hc.dip
    have e2 : w.chip.destPort c.sn.toU8.toNat = w0.chip.destPort c.sn.toU8.toNat := hc.dport
    rw [hc.sent, e1, e2] at h
    exact h

theorem timerAction_acted (dbg : Bool) (fuel : Nat) (secs : UInt32) (t : DhcpTimer) (w w' : World) (c c' : Client)
    (hv : ValidHostname c.hostname) (hz : Sizes w.chip c.sn.idx) (ht : TxState w.chip c.sn.idx)
    (h : timerAction dbg fuel worldBus secs (some t) (w, c) = (.ok (), (w', c'))) : Acted t secs w c w' c' := by
  have req : ∀ (st : State), (request worldBus >>= fun _ => modC (Client.setState st)) (w, c) = (.ok (), (w', c')) →
      c' = (rexid c).setState st ∧
      ∃ payload, w'.chip.sent = w.chip.sent ++ [⟨c.sn.idx, w.chip.destIp c.sn.idx, w.chip.destPort c.sn.idx, payload⟩] ∧
      Dhcp.decode payload = some (requestMessage c.mac c.ip c.hostname c.serverId (rexid c).xid) := by
    intro st h
    rw [M.bind_run, request_client] at h
    obtain ⟨x, r, hx⟩ := rexid_eq c
    rw [hx] at h ⊢
    dsimp only at h
    rcases C32_send_request c.sn c.mac c.ip c.hostname c.serverId x w hv ht with ⟨w1, payload, h1, h2, h3⟩ | ⟨e, w1, h1, -⟩
    · rw [h1] at h
      cases h
      exact ⟨rfl, payload, h2, h3⟩
    · rw [h1] at h; cases h
  cases t with
  | restart =>
    have h0 : discover dbg fuel worldBus secs (w, c) = (.ok (), (w', c')) := h
    have hnoip := leads_discover_noIp dbg fuel secs (w, c) trivial
    rw [h0] at hnoip
    rw [discover_run] at h0
    obtain ⟨x, r, hx⟩ := restarted_eq c
    rw [hx, bind_onBus] at h0
    dsimp only at h0
    have hs : ∃ w1, worldBus.setSipr .unspecified w = (.ok (), w1) ∧ Calm c.sn.idx w w1 :=
      ⟨_, rfl, run_setCommon 15 .unspecified _ w (by omega)⟩
    obtain ⟨w1, hs1, hs2⟩ := hs
    rw [hs1] at h0
    dsimp only at h0
    rw [bind_onBus] at h0
    rcases hb : udpBind dbg fuel worldBus c.sn c.srcPort w1 with ⟨e | _, w2⟩ <;> rw [hb] at h0 <;> dsimp only at h0
    · cases h0
    · have hz1 : Sizes w1.chip c.sn.idx := ⟨by rw [hs2.rxs]; exact hz.rx_dvd, by rw [hs2.rxs]; exact hz.rx_lt,
        by rw [hs2.txs]; exact hz.tx_dvd, by rw [hs2.txs]; exact hz.tx_lt⟩
      have hf := udpBind_fresh hz1 hb
      have hks := keepsSent_udpBind dbg fuel c.sn c.srcPort w1
      rw [hb] at hks
      rw [bind_onBus] at h0
      rcases C32_send_discover dbg c.sn c.mac c.hostname x c.broadcastAddr w2 hv hf.tx with ⟨w3, payload, h1, h2, h3⟩ | ⟨e, w3, h1, -⟩
      · rw [h1] at h0
        dsimp only at h0
        cases h0
        refine ⟨rfl, rfl, rfl, hnoip.1, payload, ?_, h3⟩
        rw [h2, show w2.chip.sent = w1.chip.sent from hks, hs2.sent]
      · rw [h1] at h0; cases h0
  | renew =>
    obtain ⟨rfl, h2⟩ := req .renewing h
    obtain ⟨x, r, hx⟩ := rexid_eq c
    rw [hx] at h2 ⊢
    exact ⟨rfl, rfl, rfl, rfl, rfl, rfl, rfl, h2⟩
  | rebind =>
    obtain ⟨rfl, h2⟩ := req .rebinding h
    obtain ⟨x, r, hx⟩ := rexid_eq c
    rw [hx] at h2 ⊢
    exact ⟨rfl, rfl, rfl, rfl, rfl, rfl, rfl, h2⟩

/-- `process` after packets that changed nothing. -/
theorem process_acted (dbg : Bool) (fuel n : Nat) (secs v : UInt32) (w w' : World) (c c' : Client)
    (hv : ValidHostname c.hostname) (hz : Sizes w.chip c.sn.idx) (ht : TxState w.chip c.sn.idx) (hs : c.state ≠ .init)
    (hp : ∀ w1, Calm c.sn.idx w w1 → ∃ r w2, packets dbg fuel worldBus secs n (w1, c) = (r, (w2, c)) ∧ TxCalm c.sn.idx w1 w2 ∧
      ∀ x, r = .ok x → x = none)
    (h : process dbg fuel n worldBus secs (w, c) = (.ok v, (w', c'))) :
    (dueTimer c secs = none → c' = c ∧ w'.chip.sent = w.chip.sent) ∧
    (∀ t, dueTimer c secs = some t → Acted t secs w c w' c') := by
  obtain ⟨w1, k1, ⟨hi, -⟩ | he⟩ := process_run dbg fuel n secs w c
  · exact absurd hi hs
  · rw [he] at h
    obtain ⟨r, w2, hr, k2, hn⟩ := hp w1 k1
    rcases r with e | x
    · rw [M.bind_error hr] at h; cases h
    · cases hn x rfl
      rw [M.bind_ok hr] at h
      dsimp only at h
      have k := k1.toTxCalm.trans k2
      rw [M.bind_run] at h
      rcases timers_due (b := worldBus) dbg fuel secs w2 c with ht2 | ⟨-, ht2, -⟩
      · rw [ht2] at h
        rcases hd : dueTimer c secs with _ | t <;> rw [hd] at h
        · refine ⟨fun _ => ?_, nofun⟩
          change (getC >>= fun c => M.ofExcept (c.nextCall dbg secs)) (w2, c) = _ at h
          rw [M.bind_ok (show getC (w2, c) = (.ok c, (w2, c)) from rfl)] at h
          cases hn : c.nextCall dbg secs <;> rw [hn] at h <;> cases h
          exact ⟨rfl, k.sent⟩
        · refine ⟨nofun, fun t' ht' => ?_⟩
          cases ht'
          rcases ha : timerAction dbg fuel worldBus secs (some t) (w2, c) with ⟨e | _, w3, c3⟩ <;> rw [ha] at h
          · cases h
          · dsimp only at h
            rw [M.bind_ok (show getC (w3, c3) = (.ok c3, (w3, c3)) from rfl)] at h
            have hz2 : Sizes w2.chip c.sn.idx := ⟨by rw [k.rxs]; exact hz.rx_dvd, by rw [k.rxs]; exact hz.rx_lt,
              by rw [k.txs]; exact hz.tx_dvd, by rw [k.txs]; exact hz.tx_lt⟩
            have := timerAction_acted dbg fuel secs t w2 w3 c c3 hv hz2 (k.tx ht) ha
            cases hn : c3.nextCall dbg secs <;> rw [hn] at h <;> cases h
            exact this.of_calm k
      · rw [ht2] at h; cases h

/-- C37: `process` of a bound client, whatever is in the queue: if the call succeeds, the client has done what the timer that
is due asks for: after the end of the lease it has restarted, after T2 it is rebinding and after T1 it is renewing; and nothing
if none is due. -/
theorem C37_bound (dbg : Bool) (fuel n : Nat) (secs v : UInt32) (w w' : World) (c c' : Client) (hs : c.state = .bound)
    (hv : ValidHostname c.hostname) (hz : Sizes w.chip c.sn.toU8.toNat) (ht : TxState w.chip c.sn.toU8.toNat)
    (h : process dbg fuel n worldBus secs (w, c) = (.ok v, (w', c'))) :
    (dueTimer c secs = none → c' = c ∧ w'.chip.sent = w.chip.sent) ∧
    (∀ t, dueTimer c secs = some t → Acted t secs w c w' c') :=
  process_acted dbg fuel n secs v w w' c c' hv hz ht (by rw [hs]; decide)
    (fun w1 _ => packets_bound dbg fuel secs c hs n w1) h

/-- C37 (the part that holds): the same for a client in any state but `Init`, if no packet with its transaction id is in the
queue or arrives.  Missing: with such packets in the queue the timers may never be looked at, see `C37_expiry_missed`. -/
theorem C37_unanswered_partial (dbg : Bool) (fuel n : Nat) (secs v : UInt32) (w w' : World) (c c' : Client) (hs : c.state ≠ .init) (p : Nat)
    (hv : ValidHostname c.hostname) (hz : Sizes w.chip c.sn.toU8.toNat) (ht : TxState w.chip c.sn.toU8.toNat)
    (hr : RxState w.chip c.sn.toU8.toNat p) (hp : Pending (fun g => ¬ HasXid g.payload c.xid) c.sn.toU8.toNat p w)
    (h : process dbg fuel n worldBus secs (w, c) = (.ok v, (w', c'))) :
    (dueTimer c secs = none → c' = c ∧ w'.chip.sent = w.chip.sent) ∧
    (∀ t, dueTimer c secs = some t → Acted t secs w c w' c') := by
  change RxState w.chip c.sn.idx p at hr
  change Pending _ c.sn.idx p w at hp
  obtain ⟨base, hb⟩ := hr.at
  refine process_acted dbg fuel n secs v w w' c c' hv hz ht hs (fun w1 k1 => ?_) h
  cases n with
  | zero => exact ⟨_, w1, rfl, .refl _ _, nofun⟩
  | succ n =>
    obtain ⟨w2, h1, h2⟩ := recv_foreign dbg c.sn c.xid base p w1 (k1.rx _ _ hb) (k1.pending _ _ hp)
    unfold packets
    rw [M.bind_ok (show getC (w1, c) = (.ok c, (w1, c)) from rfl), bind_onBus]
    rcases h2 with h2 | ⟨e, h2⟩
    · rw [h2]; exact ⟨_, w2, rfl, (h1.calm _).toTxCalm, fun x hx => by cases hx; rfl⟩
    · rw [h2]; exact ⟨_, w2, rfl, (h1.calm _).toTxCalm, nofun⟩

/-- The checks of `recv` pass for a packet with the transaction id of the client whose first byte is not 1. -/
theorem run_check_match {d : Bytes} {xid : UInt32} (h : HasXid d xid) (hop : d.head? ≠ some 1) :
    (checkProg xid).run cursorOps ⟨d, 0⟩ = (.ok true, ⟨d, 8⟩) := by
  obtain ⟨h8, hx⟩ := h
  unfold checkProg isBootreply pktXid
  rw [RProg.bind_ok (a := decide ((d.drop 0).take 1 = [1])) (s' := ⟨d, 0 + 1⟩) (by
    rw [RProg.bind_ok (cur_seekStart (o := 0) (by simp)), RProg.bind_ok (cur_readExact (by show 1 ≤ d.length - 0; omega))]
    rfl)]
  rw [if_neg (by
    rcases d with _ | ⟨x, d⟩
    · simp
    · simpa using hop)]
  rw [RProg.bind_ok (a := quadU32 (quad ((d.drop 4).take 4))) (s' := ⟨d, 4 + 4⟩) (by
    rw [RProg.bind_ok (cur_seekStart (o := 4) (by show 4 ≤ _; omega)), RProg.bind_ok (cur_readExact (by show 4 ≤ d.length - 4; omega))]
    rfl)]
  have : quadU32 (quad ((d.drop 4).take 4)) = xid := by
    apply UInt32.toNat_inj.mp
    rw [quad_num (by simp; omega), ← hx]; rfl
  rw [this]; simp; rfl

theorem recv_match (dbg : Bool) (sn : Sn) (xid : UInt32) (base p : Nat) (w : World) (g : Datagram) (rest : Bytes)
    (hb : RxAt w.chip sn.idx base p) (hg : g.payload.length < 65536)
    (hq : w.chip.unread sn.idx = udpFrame g.src g.payload ++ rest) (hx : HasXid g.payload xid) (hop : g.payload.head? ≠ some 1) :
    (∃ u w1, recv dbg worldBus sn xid w = (.ok (some u), w1) ∧ Later w w1 ∧ UR w1 u sn g.payload 8 base p) ∨
    (dbg = true ∧ ∃ w1, recv dbg worldBus sn xid w = (.error .panic, w1) ∧ Later w w1) := by
  unfold recv
  rcases udpReader_UR dbg sn base p w g rest hb hg hq with ⟨u, w1, h1, h2, h3, -⟩ | ⟨hd, w1, h1, h2⟩
  · left
    rw [h1]
    show ∃ u' w1', recvCheck worldBus u xid w1 = _ ∧ _
    unfold recvCheck
    rw [if_neg h3.not_truncated]
    obtain ⟨w2, u2, r1, l1, h4⟩ := h3.run_ok (run_check_match hx hop)
    rw [M.bind_ok r1]
    exact ⟨u2, w2, rfl, h2.trans l1, h4⟩
  · right; rw [h1]; exact ⟨hd, w1, rfl, h2⟩

theorem word_toNat {x : Bytes} (h : x.length = 4) : (word x).toNat = Dhcp.num x := quad_num h

theorem derate_toNat (x : UInt32) : (satSub x (x / 8)).toNat = derate x.toNat := by
  rw [satSub_toNat, UInt32.toNat_div]; rfl

theorem satMul7_toNat (x : UInt32) : (satMul7 x).toNat = min (x.toNat * 7) (2 ^ 32 - 1) := by
  unfold satMul7
  split
  · rw [UInt32.toNat_mul]; show x.toNat * 7 % 4294967296 = _; omega
  · show 4294967295 = _; omega

theorem ack_times {d : Bytes} {a : Ack} (ha : IsAck d a) :
    (ackLease a).toNat = a.leaseSecs ∧ (ackT1 a).toNat = a.t1Secs ∧ (ackT2 a).toNat = a.t2Secs := by
  have hl : (ackLease a).toNat = a.leaseSecs := word_toNat (contents_length ha.lease)
  refine ⟨hl, ?_, ?_⟩
  · unfold ackT1 Ack.t1Secs
    rcases h : a.t1 with _ | x
    · show (ackLease a / 2).toNat = _
      rw [UInt32.toNat_div, hl]; rfl
    · exact word_toNat (contents_length (by rw [ha.t1, h]))
  · unfold ackT2 Ack.t2Secs
    rcases h : a.t2 with _ | x
    · show (satMul7 (ackLease a) / 8).toNat = _
      rw [UInt32.toNat_div, satMul7_toNat, hl]; rfl
    · exact word_toNat (contents_length (by rw [ha.t2, h]))

/-- C37: an ACK with the client's transaction id at the head of the queue makes a client that has requested an address bound
to it, from now on for seven eighths of the times the server gave.  (An ACK without a mask or without a server is only
accepted when renewing.) -/
theorem C37_ack (fuel n : Nat) (secs : UInt32) (w : World) (c : Client) (p : Nat) (g : Datagram) (rest : Bytes) (a : Ack)
    (hs : c.state ∈ [.requesting, .renewing, .rebinding]) (hr : RxState w.chip c.sn.toU8.toNat p)
    (hq : w.chip.unread c.sn.toU8.toNat = udpFrame g.src g.payload ++ rest) (hlen : g.payload.length ≤ 65280)
    (hx : HasXid g.payload c.xid) (hop : g.payload.head? ≠ some 1) (ha : IsAck g.payload a)
    (hm : a.mask.isSome ∨ c.state = .renewing) (hg : a.server.isSome ∨ c.state = .renewing) :
    let c' := (process false fuel (n + 1) worldBus secs (w, c)).2.2
    c'.state = .bound ∧ c'.stateTimeout = none ∧ c'.leasedIp = some c.ip ∧ c'.leaseSecs = secs ∧
    c'.lease.toNat = derate a.leaseSecs ∧ c'.t1.toNat = derate a.t1Secs ∧ c'.t2.toNat = derate a.t2Secs ∧
    c'.dns.map Ipv4.octets = a.dns.or (c.dns.map Ipv4.octets) ∧ c'.ntp.map Ipv4.octets = a.ntp.or (c.ntp.map Ipv4.octets) := by
  intro c'
  change RxState w.chip c.sn.idx p at hr
  change w.chip.unread c.sn.idx = _ at hq
  have hs' : c.state = .requesting ∨ c.state = .renewing ∨ c.state = .rebinding := by simpa using hs
  suffices hc : c' = acked c secs a by
    obtain ⟨h1, h2, h3⟩ := ack_times ha
    have hmap : ∀ {x : Option Bytes} {opt : UInt8} {ok : Nat → Bool}, contents g.payload opt ok 4 = .ok x →
        (x.map quad).map Ipv4.octets = x := by
      intro x opt ok h
      rcases x with _ | x
      · rfl
      · simp only [Option.map_some]; rw [quad_octets (contents_length h)]
    rw [hc]
    refine ⟨rfl, rfl, rfl, rfl, ?_, ?_, ?_, ?_, ?_⟩
    · rw [← h1]; exact derate_toNat _
    · rw [← h2]; exact derate_toNat _
    · rw [← h3]; exact derate_toNat _
    · show ((a.dns.map quad).or c.dns).map _ = _
      have := hmap ha.dns
      cases hdn : a.dns <;> rw [hdn] at this <;> simp_all
    · show ((a.ntp.map quad).or c.ntp).map _ = _
      have := hmap ha.ntp
      cases hdn : a.ntp <;> rw [hdn] at this <;> simp_all
  obtain ⟨base, hb⟩ := hr.at
  obtain ⟨w1, k1, ⟨hi, -⟩ | he⟩ := process_run false fuel (n + 1) secs w c
  · rw [hi] at hs'; simp at hs'
  · show (process false fuel (n + 1) worldBus secs (w, c)).2.2 = _
    rw [he]
    have hb1 := k1.rx _ _ hb
    have hq1 : ∃ rest', w1.chip.unread c.sn.idx = udpFrame g.src g.payload ++ rest' := by
      rw [hb1.state.data]
      have : udpFrame g.src g.payload <+: (w.chip.received c.sn.idx).drop p := by
        rw [← hr.data, hq]; exact List.prefix_append _ _
      obtain ⟨t, ht⟩ := this.trans (prefix_drop k1.recvd p)
      exact ⟨t, ht.symm⟩
    obtain ⟨rest', hq1⟩ := hq1
    rcases recv_match false c.sn c.xid base p w1 g rest' hb1 (by omega) hq1 hx hop with ⟨u, w2, h1, h2, h3⟩ | ⟨hd, -⟩
    · obtain ⟨w3, h4, -⟩ := handle_ack false fuel secs h3 hlen ha hs' hm hg
      have hpk : packets false fuel worldBus secs (n + 1) (w1, c) = packets false fuel worldBus secs n (w3, acked c secs a) := by
        rw [packets.eq_2, M.bind_ok (show getC (w1, c) = (.ok c, (w1, c)) from rfl), bind_onBus, h1]
        dsimp only
        rw [M.bind_ok h4]
      obtain ⟨r, w4, h5, -, h6⟩ := packets_bound false fuel secs (acked c secs a) rfl n w3
      rw [h5] at hpk
      rcases r with e | x
      · rw [M.bind_error hpk]
      · cases h6 x rfl
        rw [M.bind_ok hpk]
        have hdue : dueTimer (acked c secs a) secs = none := by
          show (if (acked c secs a).lease < secs - secs then _ else if (acked c secs a).t2 < secs - secs then _ else
            if (acked c secs a).t1 < secs - secs then _ else none) = none
          have h0 : ∀ x : UInt32, ¬ x < secs - secs := by
            intro x h; rw [u32_lt, u32_sub] at h; omega
          rw [if_neg (h0 _), if_neg (h0 _), if_neg (h0 _)]
        have ht : timers false fuel worldBus secs (w4, acked c secs a) = (.ok (), (w4, acked c secs a)) := by
          rcases timers_due (b := worldBus) false fuel secs w4 (acked c secs a) with h | ⟨h, -⟩
          · rw [h, hdue]; rfl
          · cases h
        show ((timers false fuel worldBus secs >>= fun _ => getC >>= fun c => M.ofExcept (c.nextCall false secs)) (w4, acked c secs a)).2.2 = _
        rw [M.bind_ok ht, M.bind_ok (show getC (w4, acked c secs a) = (.ok (acked c secs a), (w4, acked c secs a)) from rfl)]
        cases (acked c secs a).nextCall false secs <;> rfl
    · cases hd

/-- An ACK: lease 1000 s, mask, server 10.0.0.1, router 10.0.0.254, DNS. -/
def sampleAck : Bytes :=
  [2, 1, 6, 0, 0, 0, 0, 7] ++ List.replicate 228 0 ++ [99, 130, 83, 99] ++
    [53, 1, 5, 1, 4, 255, 255, 255, 0, 3, 4, 10, 0, 0, 254, 54, 4, 10, 0, 0, 1, 6, 4, 8, 8, 8, 8, 51, 4, 0, 0, 3, 232, 255]

def sampleAckData : Ack := ⟨some [255, 255, 255, 0], some [10, 0, 0, 1], some [8, 8, 8, 8], none, [0, 0, 3, 232], none, none⟩

def server : SockAddr := ⟨⟨10, 0, 0, 1⟩, 67⟩

/-- A client that has asked for 10.10.10.10. -/
def requestingClient : Client :=
  { Client.new .sn5 1 ⟨2, 0, 17, 34, 51, 68⟩ [104] with state := .requesting, stateTimeout := some 90, xid := 7, ip := ⟨10, 10, 10, 10⟩ }

/-- The hypotheses of `C37_ack` are met. -/
example : RxState (queueWorld [0, 0, 0, 0] [⟨server, sampleAck⟩]).chip 5 0 ∧
    (queueWorld [0, 0, 0, 0] [⟨server, sampleAck⟩]).chip.unread 5 = udpFrame server sampleAck ++ [] ∧
    HasXid sampleAck requestingClient.xid ∧ sampleAck.head? ≠ some 1 ∧ IsAck sampleAck sampleAckData ∧
    sampleAckData.leaseSecs = 1000 ∧ sampleAckData.t1Secs = 500 ∧ sampleAckData.t2Secs = 875 := by
  refine ⟨⟨by decide +kernel, by decide +kernel, by decide +kernel, by decide +kernel, by decide +kernel, by decide +kernel⟩,
    by decide +kernel, by decide +kernel, by decide +kernel,
    ⟨by decide +kernel, by decide +kernel, by decide +kernel, by decide +kernel, by decide +kernel, by decide +kernel, by decide +kernel, by decide +kernel⟩,
    by decide +kernel, by decide +kernel, by decide +kernel⟩

/-- An ACK with the client's transaction id but without a lease time. -/
def leaselessAck : Bytes :=
  [2, 1, 6, 0, 0, 0, 0, 7] ++ List.replicate 228 0 ++ [99, 130, 83, 99] ++ [53, 1, 5, 1, 4, 255, 255, 255, 0, 54, 4, 10, 0, 0, 1, 255]

/-- A client whose lease of 1000 s was obtained at time 50 and which is renewing it. -/
def renewingClient : Client :=
  { Client.new .sn5 1 ⟨2, 0, 17, 34, 51, 68⟩ [104] with
    state := .renewing, xid := 7, ip := ⟨10, 10, 10, 10⟩, t1 := 500, t2 := 875, lease := 1000, leaseSecs := 50 }

set_option maxRecDepth 8000 in
/-- C37 fails in this: an ACK without a lease time is left in the queue and `process` returns at once, before it looks at the
timers; so, long after the lease has ended, the client still has its address and does not restart.  It asks to be called
again at once, and finds the same packet. -/
theorem C37_expiry_missed :
    let w := queueWorld [10, 10, 10, 10] [⟨server, leaselessAck⟩]
    let r := process false 3 3 worldBus 5000 (w, renewingClient)
    dueTimer renewingClient 5000 = some .restart ∧ r.1 = .ok 0 ∧ r.2.2 = renewingClient ∧
    r.2.2.leasedIp = some ⟨10, 10, 10, 10⟩ ∧ r.2.1.chip.unread 5 = w.chip.unread 5 ∧ r.2.1.chip.sent = [] := by
  refine ⟨by decide +kernel, by decide +kernel, by decide +kernel, by decide +kernel, by decide +kernel, by decide +kernel⟩

/-- The ACK of `sampleAck` with a renewal time of 65536 s, which is longer than the lease. -/
def lateRenewalAck : Bytes :=
  [2, 1, 6, 0, 0, 0, 0, 7] ++ List.replicate 228 0 ++ [99, 130, 83, 99] ++
    [53, 1, 5, 1, 4, 255, 255, 255, 0, 54, 4, 10, 0, 0, 1, 51, 4, 0, 0, 3, 232, 58, 4, 0, 1, 0, 0, 255]

set_option maxRecDepth 8000 in
/-- C38 fails in this: the client takes the times the server gives without putting them in order, and asks to be called at
the renewal time; here that is 57344 s away although the lease ends in 875 s. -/
theorem C38_times_out_of_order :
    let w := queueWorld [0, 0, 0, 0] [⟨server, lateRenewalAck⟩]
    let r := process false 3 3 worldBus 100 (w, requestingClient)
    r.1 = .ok 57344 ∧ r.2.2.leasedIp = some ⟨10, 10, 10, 10⟩ ∧ dueTimer r.2.2 976 = some .restart := by
  refine ⟨by decide +kernel, by decide +kernel, by decide +kernel⟩

/-! ## C66: the gateway -/

set_option maxRecDepth 8000 in
/-- C66 is false: the gateway register is set to the address of the DHCP server (option 54), not to the router (option 3). -/
theorem C66_gateway_is_server :
    let r := process false 3 3 worldBus 100 (queueWorld [0, 0, 0, 0] [⟨server, sampleAck⟩], requestingClient)
    r.2.2.leasedIp = some ⟨10, 10, 10, 10⟩ ∧ contents sampleAck 3 (· == 4) 4 = .ok (some [10, 0, 0, 254]) ∧
    r.2.1.chip.gateway = [10, 0, 0, 1] := by
  refine ⟨by decide +kernel, by decide +kernel, by decide +kernel⟩

/-- C66 (the part that holds): when an ACK is handled the subnet mask register holds its option 1 and, if it has an option 54
that is the same as its router option 3, the gateway register holds the router.  Missing: the router is not looked at, see
`C66_gateway_is_server`. -/
theorem C66_registers_partial (dbg : Bool) (fuel : Nat) (secs : UInt32) (w : World) (u : UdpReader) (d : Bytes) (pos base p : Nat) (c : Client)
    (a : Ack) (hu : UR w u c.sn d pos base p) (hd : d.length ≤ 65280) (ha : IsAck d a)
    (hs : c.state ∈ [.requesting, .renewing, .rebinding]) (hm : a.mask.isSome ∨ c.state = .renewing)
    (hg : a.server.isSome ∨ c.state = .renewing) :
    ∃ w', handle dbg fuel worldBus secs u (w, c) = (.ok none, (w', acked c secs a)) ∧
      (∀ m, a.mask = some m → w'.chip.subnet = m) ∧
      (∀ r, contents d 3 (fun n => n % 4 == 0 && 4 ≤ n) 4 = .ok (some r) → a.server = some r → w'.chip.gateway = r) ∧
      (c.state = .requesting → w'.chip.ownIp = c.ip.octets) := by
  obtain ⟨w', h1, -, -, -, h5, h6, h7, -⟩ := handle_ack dbg fuel secs hu hd ha (by simpa using hs) hm hg
  exact ⟨w', h1, h5, fun r _ hr => h6 r hr, h7⟩

/-! ## C39 -/

/-- A packet that `process` rejects: it says that it is a request (op 1), or has another transaction id, or is too short to
have one. -/
def Rejected (d : Bytes) (xid : UInt32) : Prop := d.head? = some 1 ∨ ¬ HasXid d xid

theorem run_check_rejected {d : Bytes} {xid : UInt32} (h : Rejected d xid) :
    (∃ cur, (checkProg xid).run cursorOps ⟨d, 0⟩ = (.ok false, cur)) ∨
    ∃ cur, (checkProg xid).run cursorOps ⟨d, 0⟩ = (.error .unexpectedEof, cur) := by
  rcases h with h | h
  · left
    rcases d with _ | ⟨x, d⟩
    · cases h
    · simp only [List.head?_cons, Option.some.injEq] at h
      subst h
      unfold checkProg isBootreply
      rw [RProg.bind_ok (a := true) (s' := ⟨1 :: d, 0 + 1⟩) (by
        rw [RProg.bind_ok (cur_seekStart (o := 0) (by simp)), RProg.bind_ok (cur_readExact (by simp))]
        rfl)]
      exact ⟨_, rfl⟩
  · exact run_check_foreign h

/-- C39 is false, and in every case: if the first packet in the queue is rejected, then a call of `process` for which no timer
is due, whatever else is in the queue and whatever it returns, leaves the packet in the queue and the client as it is; so the
packets behind it are not seen by this call or by the next. -/
theorem C39_rejected_packet_stays (dbg : Bool) (fuel n : Nat) (secs : UInt32) (w : World) (c : Client) (p : Nat) (g : Datagram) (rest : Bytes)
    (hs : c.state ≠ .init) (hr : RxState w.chip c.sn.toU8.toNat p)
    (hq : w.chip.unread c.sn.toU8.toNat = udpFrame g.src g.payload ++ rest) (hlen : g.payload.length < 65536)
    (hx : Rejected g.payload c.xid) (hd : dueTimer c secs = none) :
    let r := process dbg fuel n worldBus secs (w, c)
    r.2.2 = c ∧ RxState r.2.1.chip c.sn.toU8.toNat p ∧ udpFrame g.src g.payload <+: r.2.1.chip.unread c.sn.toU8.toNat := by
  intro r
  change RxState w.chip c.sn.idx p at hr
  change w.chip.unread c.sn.idx = _ at hq
  suffices h : ∃ w', r.2 = (w', c) ∧ Calm c.sn.idx w w' by
    obtain ⟨w', h1, h2⟩ := h
    obtain ⟨base, hb⟩ := hr.at
    have hb' := h2.rx _ _ hb
    rw [h1]
    refine ⟨rfl, hb'.state, ?_⟩
    show _ <+: w'.chip.unread c.sn.idx
    rw [hb'.state.data]
    have : udpFrame g.src g.payload <+: (w.chip.received c.sn.idx).drop p := by
      rw [← hr.data, hq]; exact List.prefix_append _ _
    exact this.trans (prefix_drop h2.recvd p)
  obtain ⟨base, hb⟩ := hr.at
  obtain ⟨w1, k1, ⟨hi, -⟩ | he⟩ := process_run dbg fuel n secs w c
  · exact absurd hi hs
  · have hb1 := k1.rx _ _ hb
    have hq1 : ∃ rest', w1.chip.unread c.sn.idx = udpFrame g.src g.payload ++ rest' := by
      rw [hb1.state.data]
      have : udpFrame g.src g.payload <+: (w.chip.received c.sn.idx).drop p := by
        rw [← hr.data, hq]; exact List.prefix_append _ _
      obtain ⟨t, ht⟩ := this.trans (prefix_drop k1.recvd p)
      exact ⟨t, ht.symm⟩
    obtain ⟨rest', hq1⟩ := hq1
    have hrecv : ∃ w2, Later w1 w2 ∧ (recv dbg worldBus c.sn c.xid w1 = (.ok none, w2) ∨ ∃ e, recv dbg worldBus c.sn c.xid w1 = (.error e, w2)) := by
      unfold recv
      rcases udpReader_UR dbg c.sn base p w1 g rest' hb1 hlen hq1 with ⟨u, w2, h1, h2, h3, -⟩ | ⟨-, w2, h1, h2⟩
      · rw [h1]
        show ∃ w1', Later w1 w1' ∧ (recvCheck worldBus u c.xid w2 = _ ∨ ∃ e, recvCheck worldBus u c.xid w2 = _)
        unfold recvCheck
        rw [if_neg h3.not_truncated]
        rcases run_check_rejected hx with ⟨cur, hc⟩ | ⟨cur, hc⟩
        · have := h3.run (checkProg c.xid)
          rw [hc] at this
          obtain ⟨w', u', e1, e2, _⟩ := this
          refine ⟨w', h2.trans e2, .inl ?_⟩
          rw [M.bind_ok e1]; rfl
        · obtain ⟨w', e1, e2⟩ := h3.run_error hc
          refine ⟨w', h2.trans e2, .inr ⟨.unexpectedEof, ?_⟩⟩
          rw [M.bind_error e1]
      · rw [h1]; exact ⟨w2, h2, .inr ⟨_, rfl⟩⟩
    have hpk : ∃ r w2, packets dbg fuel worldBus secs n (w1, c) = (r, (w2, c)) ∧ Later w1 w2 ∧ ∀ x, r = .ok x → x = none := by
      cases n with
      | zero => exact ⟨_, w1, rfl, .refl _, nofun⟩
      | succ n =>
        obtain ⟨w2, l1, h2⟩ := hrecv
        unfold packets
        rw [M.bind_ok (show getC (w1, c) = (.ok c, (w1, c)) from rfl), bind_onBus]
        rcases h2 with h2 | ⟨e, h2⟩
        · rw [h2]; exact ⟨_, w2, rfl, l1, fun x hx => by cases hx; rfl⟩
        · rw [h2]; exact ⟨_, w2, rfl, l1, nofun⟩
    obtain ⟨x, w2, h1, h2, h3⟩ := hpk
    refine ⟨w2, ?_, k1.trans (h2.calm _)⟩
    show (process dbg fuel n worldBus secs (w, c)).2 = _
    rw [he]
    rcases x with e | x
    · rw [M.bind_error h1]
    · cases h3 x rfl
      rw [M.bind_ok h1]
      show ((timers dbg fuel worldBus secs >>= fun _ => getC >>= fun c => M.ofExcept (c.nextCall dbg secs)) (w2, c)).2 = _
      rcases timers_due (b := worldBus) dbg fuel secs w2 c with ht | ⟨-, ht, -⟩
      · rw [hd] at ht
        have ht2 : timers dbg fuel worldBus secs (w2, c) = (.ok (), (w2, c)) := by rw [ht]; rfl
        rw [M.bind_ok ht2, M.bind_ok (show getC (w2, c) = (.ok c, (w2, c)) from rfl)]
        cases c.nextCall dbg secs <;> rfl
      · rw [M.bind_error ht]

set_option maxRecDepth 8000 in
/-- A concrete case: the ACK the client waits for is behind a foreign packet.  Nothing happens until the timeout of the
request; with the ACK alone the client is bound at once. -/
theorem C39_ack_not_seen :
    let w := queueWorld [0, 0, 0, 0] [foreignPacket, ⟨server, sampleAck⟩]
    (process false 3 3 worldBus 92 (w, requestingClient)).2.2 = requestingClient ∧
    (process false 3 3 worldBus 92 (queueWorld [0, 0, 0, 0] [⟨server, sampleAck⟩], requestingClient)).2.2.hasLease = true ∧
    Rejected foreignPacket.payload requestingClient.xid ∧ dueTimer requestingClient 92 = none := by
  refine ⟨by decide +kernel, by decide +kernel, .inr (by decide +kernel), by decide +kernel⟩

/-- C39 (the part that holds): a packet that passes the checks is removed when the client has nothing to do with it (states
`Init` and `Bound`), and so is an ACK that is acted on; exactly this packet is removed.  Missing: rejected packets stay. -/
theorem C39_handled_removed_partial (dbg : Bool) (fuel : Nat) (secs : UInt32) (w : World) (u : UdpReader) (d : Bytes) (pos base p : Nat) (c : Client)
    (hu : UR w u c.sn d pos base p)
    (hc : c.state = .init ∨ c.state = .bound ∨ (c.state ∈ [.requesting, .renewing, .rebinding] ∧ d.length ≤ 65280 ∧
      ∃ a, IsAck d a ∧ a.mask.isSome ∧ a.server.isSome)) :
    ∃ w' c', handle dbg fuel worldBus secs u (w, c) = (.ok none, (w', c')) ∧ RxState w'.chip c.sn.toU8.toNat (p + (8 + d.length)) := by
  have hdone : handle dbg fuel worldBus secs u (w, c) = (onBus (udpReaderDone worldBus u) >>= fun _ => pure none) (w, c) →
      ∃ w' c', handle dbg fuel worldBus secs u (w, c) = (.ok none, (w', c')) ∧ RxState w'.chip c.sn.idx (p + (8 + d.length)) := by
    intro h
    obtain ⟨w', h1, h2, -⟩ := hu.done
    refine ⟨w', c, ?_, h2.state⟩
    rw [h, bind_onBus, h1]; rfl
  rcases hc with hc | hc | ⟨hs, hd, a, ha, hm, hg⟩
  · refine hdone ?_
    unfold handle
    rw [M.bind_ok (show getC (w, c) = (.ok c, (w, c)) from rfl), hc]
  · refine hdone ?_
    unfold handle
    rw [M.bind_ok (show getC (w, c) = (.ok c, (w, c)) from rfl), hc]
  · obtain ⟨w', h1, h2, -⟩ := handle_ack dbg fuel secs hu hd ha (by simpa using hs) (.inl hm) (.inl hg)
    exact ⟨w', _, h1, h2.state⟩

/-! ## Which timer is running -/

/-- The timeout for an answer is running exactly in the states `Selecting` and `Requesting`. -/
def TimeoutInv (s : World × Client) : Prop :=
  s.2.stateTimeout.isSome = true ↔ s.2.state = .selecting ∨ s.2.state = .requesting

theorem tinv_onBus {α : Type} (m : M World α) : Leads TimeoutInv TimeoutInv (onBus m) := fun _ h => h

theorem tinv_modC {f : Client → Client} (h : ∀ c, (f c).stateTimeout = c.stateTimeout ∧ (f c).state = c.state) :
    Leads TimeoutInv TimeoutInv (modC f) := by
  intro s hs
  obtain ⟨h1, h2⟩ := h s.2
  show (f s.2).stateTimeout.isSome = true ↔ (f s.2).state = _ ∨ (f s.2).state = _
  rw [h1, h2]; exact hs

theorem tinv_discover (dbg : Bool) (fuel : Nat) (secs : UInt32) : Leads TimeoutInv TimeoutInv (discover dbg fuel worldBus secs) := by
  rintro ⟨w, c⟩ h
  unfold TimeoutInv at h ⊢
  rcases discover_client (b := worldBus) dbg fuel secs w c with ⟨-, hd⟩ | ⟨-, hd⟩ <;> rw [hd] <;>
    obtain ⟨x, r, hx⟩ := restarted_eq c <;> rw [hx]
  · exact ⟨fun _ => .inl rfl, fun _ => rfl⟩
  · exact h

theorem tinv_request : Leads TimeoutInv TimeoutInv (request worldBus) := by
  rintro ⟨w, c⟩ h
  unfold TimeoutInv at h ⊢
  rw [request_client]
  obtain ⟨x, r, hx⟩ := rexid_eq c
  rw [hx]
  exact h

theorem tinv_setState (st : State) (h : st ≠ .selecting ∧ st ≠ .requesting) :
    Leads TimeoutInv TimeoutInv (modC (Client.setState st)) := by
  intro s _
  show (none : Option UInt32).isSome = true ↔ st = _ ∨ st = _
  simp [h.1, h.2]

theorem tinv_ackBound (o : AckOpts) : Leads TimeoutInv TimeoutInv (ackBound worldBus o) := by
  unfold ackBound
  refine .seq leads_getC fun c => .seq ?_ fun _ => .seq (tinv_modC fun _ => ⟨rfl, rfl⟩) fun _ => tinv_setState .bound (by decide)
  split
  · exact tinv_onBus _
  · exact .pure _

theorem tinv_ackGateway (dbg : Bool) (secs : UInt32) (o : AckOpts) : Leads TimeoutInv TimeoutInv (ackGateway dbg worldBus secs o) := by
  unfold ackGateway
  refine .seq leads_getC fun c => ?_
  split
  · exact .seq (tinv_onBus _) fun _ => .seq (tinv_ackBound o) fun _ => .pure _
  · split
    · exact .seq (tinv_ackBound o) fun _ => .pure _
    · exact .ofExcept _

theorem tinv_ackMask (dbg : Bool) (secs : UInt32) (o : AckOpts) : Leads TimeoutInv TimeoutInv (ackMask dbg worldBus secs o) := by
  unfold ackMask
  refine .seq leads_getC fun c => ?_
  split
  · exact .seq (tinv_onBus _) fun _ => tinv_ackGateway dbg secs o
  · split
    · exact tinv_ackGateway dbg secs o
    · exact .ofExcept _

theorem tinv_handle (dbg : Bool) (fuel : Nat) (secs : UInt32) (u : UdpReader) :
    Leads TimeoutInv TimeoutInv (handle dbg fuel worldBus secs u) := by
  have hr : Leads TimeoutInv TimeoutInv (onReply dbg fuel worldBus secs u) := by
    unfold onReply
    refine .seq (tinv_onBus _) fun r => ?_
    split
    · unfold onAck
      refine .seq (tinv_onBus _) fun r => ?_
      split
      · exact .seq leads_getC fun _ => .ofExcept _
      · exact .seq (tinv_modC fun _ => ⟨rfl, rfl⟩) fun _ => .seq (tinv_onBus _) fun _ => tinv_ackMask dbg secs _
    · exact .seq (tinv_onBus _) fun _ => .seq (tinv_discover dbg fuel secs) fun _ => .pure _
    · exact .seq (tinv_onBus _) fun _ => .pure _
  unfold handle
  refine .seq leads_getC fun c => ?_
  split
  · unfold onOffer
    refine .seq (.seq (tinv_onBus _) fun _ => .seq (tinv_modC fun _ => ⟨rfl, rfl⟩) fun _ => .seq (tinv_onBus _) fun _ =>
      .seq (tinv_modC fun _ => ⟨rfl, rfl⟩) fun _ => .seq (tinv_onBus _) fun _ => .seq tinv_request fun _ => ?_) fun _ => .pure _
    intro s _
    exact ⟨fun _ => .inr rfl, fun _ => rfl⟩
  · exact hr
  · exact hr
  · exact hr
  · exact .seq (tinv_onBus _) fun _ => .pure _

theorem tinv_process (dbg : Bool) (fuel n : Nat) (secs : UInt32) : Leads TimeoutInv TimeoutInv (process dbg fuel n worldBus secs) := by
  have hp : ∀ n, Leads TimeoutInv TimeoutInv (packets dbg fuel worldBus secs n) := by
    intro n
    induction n with
    | zero => exact fun _ h => h
    | succ n ih =>
      unfold packets
      refine .seq leads_getC fun c => .seq (tinv_onBus _) fun r => ?_
      cases r with
      | none => exact .pure _
      | some u =>
        refine .seq (tinv_handle dbg fuel secs u) fun x => ?_
        cases x with
        | none => exact ih
        | some v => exact .pure _
  unfold process
  refine .seq leads_getC fun c => .seq (tinv_onBus _) fun _ => .seq (tinv_onBus _) fun down => ?_
  split
  · exact .pure _
  · refine .seq (hp n) fun r => ?_
    cases r with
    | some v => exact .pure _
    | none =>
      refine .seq ?_ fun _ => .seq leads_getC fun _ => .ofExcept _
      rintro ⟨w, c⟩ h
      rcases timers_due (b := worldBus) dbg fuel secs w c with ht | ⟨-, ht, -⟩
      · rw [ht]
        rcases dueTimer c secs with _ | _ | _ | _
        · exact h
        · exact tinv_discover dbg fuel secs (w, c) h
        · exact (Leads.seq tinv_request fun _ => tinv_setState .renewing (by decide)) (w, c) h
        · exact (Leads.seq tinv_request fun _ => tinv_setState .rebinding (by decide)) (w, c) h
      · rw [ht]; exact h

/-- C37: in every history of a new client, the timeout for an answer is running exactly when a DISCOVER or a REQUEST for a new
address is unanswered; with a lease the times of the lease count. -/
theorem C37_which_timer (dbg : Bool) (fuel n : Nat) (steps : List DhcpStep) (w : World) (sn : Sn) (seed : UInt64) (mac : Eui48) (hostname : Bytes) :
    let c := (runDhcp dbg fuel n steps (w, Client.new sn seed mac hostname)).2
    (c.stateTimeout.isSome = true ↔ c.state = .selecting ∨ c.state = .requesting) ∧
    (c.hasLease = true → c.stateTimeout = none) := by
  intro c
  have key : ∀ s, TimeoutInv s → TimeoutInv (runDhcp dbg fuel n steps s) := by
    induction steps with
    | nil => exact fun s h => h
    | cons st rest ih =>
      intro s h
      cases st with
      | process secs => exact ih _ (tinv_process dbg fuel n secs s h)
      | setTimeout secs => exact ih _ h
      | other sn c => exact ih _ h
  have h := key (w, Client.new sn seed mac hostname) ⟨nofun, nofun⟩
  refine ⟨h, fun hl => ?_⟩
  change c.stateTimeout.isSome = true ↔ c.state = _ ∨ c.state = _ at h
  have : c.stateTimeout.isSome ≠ true := by
    rw [Ne, h]
    unfold Client.hasLease at hl
    rintro (e | e) <;> rw [e] at hl <;> cases hl
  cases hc : c.stateTimeout
  · rfl
  · rw [hc] at this; simp at this

end Verif.Thm
