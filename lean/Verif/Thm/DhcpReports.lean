import Verif.Thm.DhcpTimes
/-!
# C115: what the DHCP client reports besides the address
-/
namespace Verif.Thm
open Verif Hl Spec Dhcp

/-! ## A call changes the reported servers only by binding the client -/

/-- The servers are those given, or the client is bound by a lease obtained at `secs`. -/
def ServersInv (d n : Option Ipv4) (secs : UInt32) (s : World × Client) : Prop :=
  (s.2.dns = d ∧ s.2.ntp = n) ∨ (s.2.state = .bound ∧ s.2.stateTimeout = none ∧ s.2.leaseSecs = secs)

/-- The servers are those given, in a state other than `Bound`. -/
def SameServers (d n : Option Ipv4) (s : World × Client) : Prop := s.2.dns = d ∧ s.2.ntp = n

variable {d n : Option Ipv4} {secs : UInt32}

theorem same_inv (s : World × Client) (h : SameServers d n s) : ServersInv d n secs s := .inl h

theorem same_onBus {α : Type} (m : M World α) : Leads (SameServers d n) (SameServers d n) (onBus m) := fun _ h => h

theorem same_modC {f : Client → Client} (h : ∀ c, (f c).dns = c.dns ∧ (f c).ntp = c.ntp) :
    Leads (SameServers d n) (SameServers d n) (modC f) := by
  intro s hs
  obtain ⟨h1, h2⟩ := h s.2
  exact ⟨h1.trans hs.1, h2.trans hs.2⟩

theorem same_discover (dbg : Bool) (fuel : Nat) (secs : UInt32) :
    Leads (SameServers d n) (SameServers d n) (discover dbg fuel worldBus secs) := by
  unfold discover
  exact .seq (same_modC fun _ => ⟨rfl, rfl⟩) fun _ => .seq leads_getC fun _ => .seq (same_onBus _) fun _ => .seq (same_onBus _) fun _ =>
    .seq (same_onBus _) fun _ => same_modC fun _ => ⟨rfl, rfl⟩

theorem same_request : Leads (SameServers d n) (SameServers d n) (request worldBus) := by
  unfold request
  exact .seq (same_modC fun _ => ⟨rfl, rfl⟩) fun _ => .seq leads_getC fun _ => same_onBus _

/-- The servers and the time the lease was obtained. -/
def SameAt (d n : Option Ipv4) (secs : UInt32) (s : World × Client) : Prop := SameServers d n s ∧ s.2.leaseSecs = secs

theorem sameAt_inv (s : World × Client) (h : SameAt d n secs s) : ServersInv d n secs s := .inl h.1

theorem sameAt_ackBound (o : AckOpts) : Leads (SameAt d n secs) (ServersInv d n secs) (ackBound worldBus o) := by
  unfold ackBound
  refine .bind (J := SameAt d n secs) (fun _ h => h) (fun c => ?_) sameAt_inv
  refine .bind (J := SameAt d n secs) ?_ (fun _ => ?_) sameAt_inv
  · split
    · exact fun _ h => h
    · exact .pure _
  · intro s h
    exact .inr ⟨rfl, rfl, h.2⟩

theorem inv_pure {α : Type} {I : World × Client → Prop} (a : α) : Leads I I (pure a : M (World × Client) α) := .pure a

theorem sameAt_ackGateway (dbg : Bool) (s' : UInt32) (o : AckOpts) :
    Leads (SameAt d n secs) (ServersInv d n secs) (ackGateway dbg worldBus s' o) := by
  unfold ackGateway
  refine .bind (J := SameAt d n secs) (fun _ h => h) (fun c => ?_) sameAt_inv
  split
  · exact .bind (J := SameAt d n secs) (fun _ h => h) (fun _ => .bind (sameAt_ackBound o) (fun _ => .pure _) fun _ h => h) sameAt_inv
  · split
    · exact .bind (sameAt_ackBound o) (fun _ => .pure _) fun _ h => h
    · exact (Leads.ofExcept _).weaken (fun _ h => h) sameAt_inv

theorem sameAt_ackMask (dbg : Bool) (s' : UInt32) (o : AckOpts) :
    Leads (SameAt d n secs) (ServersInv d n secs) (ackMask dbg worldBus s' o) := by
  unfold ackMask
  refine .bind (J := SameAt d n secs) (fun _ h => h) (fun c => ?_) sameAt_inv
  split
  · exact .bind (J := SameAt d n secs) (fun _ h => h) (fun _ => sameAt_ackGateway dbg s' o) sameAt_inv
  · split
    · exact sameAt_ackGateway dbg s' o
    · exact (Leads.ofExcept _).weaken (fun _ h => h) sameAt_inv

theorem same_onReply (dbg : Bool) (fuel : Nat) (u : UdpReader) :
    Leads (SameServers d n) (ServersInv d n secs) (onReply dbg fuel worldBus secs u) := by
  unfold onReply
  refine .bind (same_onBus _) (fun r => ?_) same_inv
  split
  · unfold onAck
    refine .bind (same_onBus _) (fun r => ?_) same_inv
    split
    · exact .bind (J := SameServers d n) (fun _ h => h) (fun _ => (Leads.ofExcept _).weaken (fun _ h => h) same_inv) same_inv
    · refine .bind (J := SameAt d n secs) (fun s h => ⟨h, rfl⟩) (fun _ => ?_) sameAt_inv
      exact .bind (J := SameAt d n secs) (fun _ h => h) (fun _ => sameAt_ackMask dbg secs _) sameAt_inv
  · exact .bind (same_onBus _) (fun _ => .bind (same_discover dbg fuel secs) (fun _ => fun s h => same_inv s h) same_inv) same_inv
  · exact .bind (same_onBus _) (fun _ => fun s h => same_inv s h) same_inv

theorem inv_handle (dbg : Bool) (fuel : Nat) (u : UdpReader) :
    Leads (ServersInv d n secs) (ServersInv d n secs) (handle dbg fuel worldBus secs u) := by
  rintro ⟨w, c⟩ h
  rcases h with h | h
  · have : Leads (SameServers d n) (ServersInv d n secs) (handle dbg fuel worldBus secs u) := by
      unfold handle
      refine .bind (J := SameServers d n) (fun _ h => h) (fun c => ?_) same_inv
      split
      · unfold onOffer
        refine Leads.weaken (J := SameServers d n) ?_ (fun _ h => h) same_inv
        exact .seq (.seq (same_onBus _) fun _ => .seq (same_modC fun _ => ⟨rfl, rfl⟩) fun _ => .seq (same_onBus _) fun _ =>
          .seq (same_modC fun _ => ⟨rfl, rfl⟩) fun _ => .seq (same_onBus _) fun _ => .seq same_request fun _ =>
          same_modC fun _ => ⟨rfl, rfl⟩) fun _ => .pure _
      · exact same_onReply dbg fuel u
      · exact same_onReply dbg fuel u
      · exact same_onReply dbg fuel u
      · exact .bind (same_onBus _) (fun _ => fun s h => same_inv s h) same_inv
    exact this (w, c) h
  · unfold handle
    rw [M.bind_ok (show getC (w, c) = (.ok c, (w, c)) from rfl), show c.state = .bound from h.1]
    exact Leads.bind (I := fun s => s.2 = c) (J := fun s => s.2 = c) (K := ServersInv d n secs) (fun _ h => h)
      (fun _ s e => .inr (by rw [show ((pure none : M (World × Client) (Option UInt32)) s).2.2 = c from e]; exact h))
      (fun s e => .inr (by rw [e]; exact h)) (w, c) rfl

theorem inv_timers (dbg : Bool) (fuel : Nat) :
    Leads (ServersInv d n secs) (ServersInv d n secs) (timers dbg fuel worldBus secs) := by
  have hs : Leads (SameServers d n) (SameServers d n) (timers dbg fuel worldBus secs) := by
    unfold timers
    refine .seq leads_getC fun c => .seq (.ofExcept _) fun e => ?_
    split
    · split
      · exact same_discover dbg fuel secs
      · exact .pure _
    · split
      · exact same_discover dbg fuel secs
      · exact .pure _
      · exact .pure _
      · unfold leaseTimers
        refine .seq leads_getC fun c => ?_
        dsimp only
        split
        · exact same_discover dbg fuel secs
        · split
          · exact .seq same_request fun _ => same_modC fun _ => ⟨rfl, rfl⟩
          · split
            · exact .seq same_request fun _ => same_modC fun _ => ⟨rfl, rfl⟩
            · exact .pure _
  rintro ⟨w, c⟩ h
  rcases h with h | ⟨h1, h2, h3⟩
  · exact same_inv _ (hs (w, c) h)
  · have hdue : dueTimer c secs = none := by
      have h0 : ∀ x : UInt32, ¬ x < secs - secs := by
        intro x h; rw [u32_lt, u32_sub] at h; omega
      unfold dueTimer
      rw [show c.stateTimeout = none from h2, show c.state = .bound from h1, show c.leaseSecs = secs from h3]
      dsimp only
      rw [if_neg (h0 _), if_neg (h0 _), if_neg (h0 _)]
    rcases timers_due (b := worldBus) dbg fuel secs w c with ht | ⟨-, ht, -⟩
    · rw [ht, hdue]; exact .inr ⟨h1, h2, h3⟩
    · rw [ht]; exact .inr ⟨h1, h2, h3⟩

/-- C115: a call of `process`, whatever happens in it, leaves the reported DNS and NTP servers as they were, or leaves the
client bound by a lease obtained in that call. -/
theorem C115_changes_partial (dbg : Bool) (fuel k : Nat) (secs : UInt32) (w : World) (c : Client) :
    let c' := (process dbg fuel k worldBus secs (w, c)).2.2
    (c'.dnsServer = c.dnsServer ∧ c'.ntpServer = c.ntpServer) ∨ (c'.hasLease = true ∧ c'.state = .bound ∧ c'.leaseSecs = secs) := by
  intro c'
  suffices h : Leads (ServersInv c.dns c.ntp secs) (ServersInv c.dns c.ntp secs) (process dbg fuel k worldBus secs) by
    rcases h (w, c) (.inl ⟨rfl, rfl⟩) with h | h
    · exact .inl h
    · refine .inr ⟨?_, h.1, h.2.2⟩
      show c'.hasLease = true
      unfold Client.hasLease; rw [show c'.state = _ from h.1]
  have hp : ∀ k, Leads (ServersInv c.dns c.ntp secs) (ServersInv c.dns c.ntp secs) (packets dbg fuel worldBus secs k) := by
    intro k
    induction k with
    | zero => exact fun _ h => h
    | succ k ih =>
      unfold packets
      refine .seq leads_getC fun c => .seq (fun _ h => h) fun r => ?_
      cases r with
      | none => exact .pure _
      | some u =>
        refine .seq (inv_handle dbg fuel u) fun x => ?_
        cases x with
        | none => exact ih
        | some v => exact .pure _
  unfold process
  refine .seq leads_getC fun c => .seq (fun _ h => h) fun _ => .seq (fun _ h => h) fun down => ?_
  split
  · exact .pure _
  · refine .seq (hp k) fun r => ?_
    cases r with
    | some v => exact .pure _
    | none =>
      exact .seq (inv_timers dbg fuel) fun _ => .seq leads_getC fun _ => .ofExcept _

/-! ## What a new client reports -/

/-- C115: in every history of a new client, a reported DNS or NTP server is one that the client reported at an earlier point of
the history (or now) when it had a lease: nothing is reported before the first lease, and nothing that no lease came with.
Missing: that it is the present lease, which is false (`C115_stale`, `C115_never_withdrawn`). -/
theorem C115_from_a_lease_partial (dbg : Bool) (fuel n : Nat) (steps : List DhcpStep) (w : World) (sn : Sn) (seed : UInt64)
    (mac : Eui48) (hostname : Bytes) :
    let at_ (k : Nat) := (runDhcp dbg fuel n (steps.take k) (w, Client.new sn seed mac hostname)).2
    let c := at_ steps.length
    ((c.dnsServer.isSome ∨ c.ntpServer.isSome) →
      ∃ k ≤ steps.length, (at_ k).hasLease = true ∧ (at_ k).dnsServer = c.dnsServer ∧ (at_ k).ntpServer = c.ntpServer) := by
  have run_append : ∀ (xs ys : List DhcpStep) s, runDhcp dbg fuel n (xs ++ ys) s = runDhcp dbg fuel n ys (runDhcp dbg fuel n xs s) := by
    intro xs
    induction xs with
    | nil => intro ys s; rfl
    | cons x xs ih =>
      intro ys s
      cases x <;> exact ih ys _
  intro at_ c hc
  suffices key : ∀ m, m ≤ steps.length → ((at_ m).dnsServer.isSome ∨ (at_ m).ntpServer.isSome) →
      ∃ k ≤ m, (at_ k).hasLease = true ∧ (at_ k).dnsServer = (at_ m).dnsServer ∧ (at_ k).ntpServer = (at_ m).ntpServer from
    key _ (Nat.le_refl _) hc
  intro m
  induction m with
  | zero =>
    intro _ h
    change ((none : Option Ipv4).isSome ∨ (none : Option Ipv4).isSome) at h
    simp at h
  | succ m ih =>
    intro hm h
    have same : (at_ (m + 1)).dnsServer = (at_ m).dnsServer ∧ (at_ (m + 1)).ntpServer = (at_ m).ntpServer ∨ (at_ (m + 1)).hasLease = true := by
      have ht : steps.take (m + 1) = steps.take m ++ [steps[m]] := List.take_succ_eq_append_getElem (by omega)
      have hstep : at_ (m + 1) = (runDhcp dbg fuel n [steps[m]] (runDhcp dbg fuel n (steps.take m) (w, Client.new sn seed mac hostname))).2 := by
        show (runDhcp dbg fuel n (steps.take (m + 1)) _).2 = _
        rw [ht, run_append]
      rw [hstep]
      show _ ∨ _
      generalize hs : runDhcp dbg fuel n (steps.take m) (w, Client.new sn seed mac hostname) = s
      have hat : at_ m = s.2 := congrArg Prod.snd hs
      rw [hat]
      cases steps[m] with
      | process secs =>
        rcases C115_changes_partial dbg fuel n secs s.1 s.2 with h | h
        · exact .inl h
        · exact .inr h.1
      | setTimeout secs => exact .inl ⟨rfl, rfl⟩
      | other sn c => exact .inl ⟨rfl, rfl⟩
    rcases same with ⟨h1, h2⟩ | h1
    · rw [h1, h2] at h ⊢
      obtain ⟨k, hk, hr⟩ := ih (by omega) h
      exact ⟨k, by omega, hr⟩
    · exact ⟨m + 1, Nat.le_refl _, h1, rfl, rfl⟩

/-! ## What an ACK gives -/

/-- C115: an accepted ACK that names a DNS server (the first address of option 6) or an NTP server (option 42) makes the client
report it, together with seven eighths of the times of the lease.  Missing: an ACK without the option leaves the server of an
earlier lease in place (`C115_stale`). -/
theorem C115_ack_partial (fuel n : Nat) (secs : UInt32) (w : World) (c : Client) (p : Nat) (g : Datagram) (rest : Bytes) (a : Ack)
    (hs : c.state ∈ [.requesting, .renewing, .rebinding]) (hr : RxState w.chip c.sn.toU8.toNat p)
    (hq : w.chip.unread c.sn.toU8.toNat = udpFrame g.src g.payload ++ rest) (hlen : g.payload.length ≤ 65280)
    (hx : HasXid g.payload c.xid) (hop : g.payload.head? ≠ some 1) (ha : IsAck g.payload a)
    (hm : a.mask.isSome ∨ c.state = .renewing) (hg : a.server.isSome ∨ c.state = .renewing) :
    let c' := (process false fuel (n + 1) worldBus secs (w, c)).2.2
    (∀ d, a.dns = some d → c'.dnsServer.map Ipv4.octets = some d) ∧ (∀ d, a.ntp = some d → c'.ntpServer.map Ipv4.octets = some d) ∧
    c'.leaseTime.map UInt32.toNat = some (derate a.leaseSecs) ∧ c'.t1Time.map UInt32.toNat = some (derate a.t1Secs) ∧
    c'.t2Time.map UInt32.toNat = some (derate a.t2Secs) := by
  intro c'
  obtain ⟨h1, -, -, -, h2, h3, h4, h5, h6⟩ := C37_ack fuel n secs w c p g rest a hs hr hq hlen hx hop ha hm hg
  refine ⟨fun d hd => ?_, fun d hd => ?_, ?_, ?_, ?_⟩
  · rw [hd] at h5; exact h5
  · rw [hd] at h6; exact h6
  · unfold Client.leaseTime; rw [show c'.state = _ from h1]; exact congrArg some h2
  · unfold Client.t1Time; rw [show c'.state = _ from h1]; exact congrArg some h3
  · unfold Client.t2Time; rw [show c'.state = _ from h1]; exact congrArg some h4

/-- C115: the times of a lease are reported exactly while the client has one. -/
theorem C115_times (c : Client) :
    c.t1Time.isSome = c.hasLease ∧ c.t2Time.isSome = c.hasLease ∧ c.leaseTime.isSome = c.hasLease := by
  unfold Client.t1Time Client.t2Time Client.leaseTime Client.hasLease
  cases c.state <;> exact ⟨rfl, rfl, rfl⟩

/-! ## What is wrong -/

/-- A DNS server is reported if `d`, and an NTP server if `n`. -/
def Reports (d n : Bool) (s : World × Client) : Prop := (d = true → s.2.dns.isSome) ∧ (n = true → s.2.ntp.isSome)

theorem reports_modC {d n : Bool} {f : Client → Client}
    (h : ∀ c, (c.dns.isSome → (f c).dns.isSome) ∧ (c.ntp.isSome → (f c).ntp.isSome)) :
    Leads (Reports d n) (Reports d n) (modC f) :=
  fun s hs => ⟨fun e => (h s.2).1 (hs.1 e), fun e => (h s.2).2 (hs.2 e)⟩

theorem reports_onBus {d n : Bool} {α : Type} (m : M World α) : Leads (Reports d n) (Reports d n) (onBus m) := fun _ h => h

theorem reports_discover {d n : Bool} (dbg : Bool) (fuel : Nat) (secs : UInt32) :
    Leads (Reports d n) (Reports d n) (discover dbg fuel worldBus secs) := by
  unfold discover
  exact .seq (reports_modC fun _ => ⟨id, id⟩) fun _ => .seq leads_getC fun _ => .seq (reports_onBus _) fun _ => .seq (reports_onBus _) fun _ =>
    .seq (reports_onBus _) fun _ => reports_modC fun _ => ⟨id, id⟩

theorem reports_request {d n : Bool} : Leads (Reports d n) (Reports d n) (request worldBus) := by
  unfold request
  exact .seq (reports_modC fun _ => ⟨id, id⟩) fun _ => .seq leads_getC fun _ => reports_onBus _

theorem reports_ackBound {d n : Bool} (o : AckOpts) : Leads (Reports d n) (Reports d n) (ackBound worldBus o) := by
  unfold ackBound
  refine .seq leads_getC fun c => .seq ?_ fun _ => .seq (reports_modC fun c => ⟨fun h => ?_, fun h => ?_⟩) fun _ => reports_modC fun _ => ⟨id, id⟩
  · split
    · exact reports_onBus _
    · exact .pure _
  · show (o.dns.or c.dns).isSome
    cases o.dns
    · exact h
    · rfl
  · show (o.ntp.or c.ntp).isSome
    cases o.ntp
    · exact h
    · rfl

theorem reports_ackGateway {d n : Bool} (dbg : Bool) (secs : UInt32) (o : AckOpts) :
    Leads (Reports d n) (Reports d n) (ackGateway dbg worldBus secs o) := by
  unfold ackGateway
  refine .seq leads_getC fun c => ?_
  split
  · exact .seq (reports_onBus _) fun _ => .seq (reports_ackBound o) fun _ => .pure _
  · split
    · exact .seq (reports_ackBound o) fun _ => .pure _
    · exact .ofExcept _

theorem reports_onReply {d n : Bool} (dbg : Bool) (fuel : Nat) (secs : UInt32) (u : UdpReader) :
    Leads (Reports d n) (Reports d n) (onReply dbg fuel worldBus secs u) := by
  unfold onReply
  refine .seq (reports_onBus _) fun r => ?_
  split
  · unfold onAck
    refine .seq (reports_onBus _) fun r => ?_
    split
    · exact .seq leads_getC fun _ => .ofExcept _
    · refine .seq (reports_modC fun _ => ⟨id, id⟩) fun _ => .seq (reports_onBus _) fun _ => ?_
      unfold ackMask
      refine .seq leads_getC fun c => ?_
      split
      · exact .seq (reports_onBus _) fun _ => reports_ackGateway dbg secs _
      · split
        · exact reports_ackGateway dbg secs _
        · exact .ofExcept _
  · exact .seq (reports_onBus _) fun _ => .seq (reports_discover dbg fuel secs) fun _ => .pure _
  · exact .seq (reports_onBus _) fun _ => .pure _

theorem reports_handle {d n : Bool} (dbg : Bool) (fuel : Nat) (secs : UInt32) (u : UdpReader) :
    Leads (Reports d n) (Reports d n) (handle dbg fuel worldBus secs u) := by
  unfold handle
  refine .seq leads_getC fun c => ?_
  split
  · unfold onOffer
    exact .seq (.seq (reports_onBus _) fun _ => .seq (reports_modC fun _ => ⟨id, id⟩) fun _ => .seq (reports_onBus _) fun _ =>
      .seq (reports_modC fun _ => ⟨id, id⟩) fun _ => .seq (reports_onBus _) fun _ => .seq reports_request fun _ =>
      reports_modC fun _ => ⟨id, id⟩) fun _ => .pure _
  · exact reports_onReply dbg fuel secs u
  · exact reports_onReply dbg fuel secs u
  · exact reports_onReply dbg fuel secs u
  · exact .seq (reports_onBus _) fun _ => .pure _

theorem reports_timers {d n : Bool} (dbg : Bool) (fuel : Nat) (secs : UInt32) :
    Leads (Reports d n) (Reports d n) (timers dbg fuel worldBus secs) := by
  unfold timers
  refine .seq leads_getC fun c => .seq (.ofExcept _) fun e => ?_
  split
  · split
    · exact reports_discover dbg fuel secs
    · exact .pure _
  · split
    · exact reports_discover dbg fuel secs
    · exact .pure _
    · exact .pure _
    · unfold leaseTimers
      refine .seq leads_getC fun c => ?_
      dsimp only
      split
      · exact reports_discover dbg fuel secs
      · split
        · exact .seq reports_request fun _ => reports_modC fun _ => ⟨id, id⟩
        · split
          · exact .seq reports_request fun _ => reports_modC fun _ => ⟨id, id⟩
          · exact .pure _

theorem reports_process {d n : Bool} (dbg : Bool) (fuel k : Nat) (secs : UInt32) :
    Leads (Reports d n) (Reports d n) (process dbg fuel k worldBus secs) := by
  have hp : ∀ k, Leads (Reports d n) (Reports d n) (packets dbg fuel worldBus secs k) := by
    intro k
    induction k with
    | zero => exact fun _ h => h
    | succ k ih =>
      unfold packets
      refine .seq leads_getC fun c => .seq (reports_onBus _) fun r => ?_
      cases r with
      | none => exact .pure _
      | some u =>
        refine .seq (reports_handle dbg fuel secs u) fun x => ?_
        cases x with
        | none => exact ih
        | some v => exact .pure _
  unfold process
  refine .seq leads_getC fun c => .seq (reports_onBus _) fun _ => .seq (reports_onBus _) fun down => ?_
  split
  · exact .pure _
  · refine .seq (hp k) fun r => ?_
    cases r with
    | some v => exact .pure _
    | none => exact .seq (reports_timers dbg fuel secs) fun _ => .seq leads_getC fun _ => .ofExcept _

/-- C115 fails in this: once a DNS or an NTP server is reported, one is reported for ever: no NAK, no timeout, no end of the lease
and no later lease withdraws it. -/
theorem C115_never_withdrawn (dbg : Bool) (fuel n : Nat) (steps : List DhcpStep) (s : World × Client) :
    (s.2.dnsServer.isSome → (runDhcp dbg fuel n steps s).2.dnsServer.isSome) ∧
    (s.2.ntpServer.isSome → (runDhcp dbg fuel n steps s).2.ntpServer.isSome) := by
  have key : ∀ (steps : List DhcpStep) s, Reports s.2.dns.isSome s.2.ntp.isSome (runDhcp dbg fuel n steps s) := by
    intro steps s
    have : ∀ s', Reports s.2.dns.isSome s.2.ntp.isSome s' → Reports s.2.dns.isSome s.2.ntp.isSome (runDhcp dbg fuel n steps s') := by
      induction steps with
      | nil => exact fun s h => h
      | cons st rest ih =>
        intro s h
        cases st with
        | process secs => exact ih _ (reports_process dbg fuel n secs s h)
        | setTimeout secs => exact ih _ h
        | other sn c => exact ih _ h
    exact this s ⟨id, id⟩
  exact key steps s

/-- An ACK for the second lease of `staleHistory`: with a lease time, a mask and a server, but neither DNS nor NTP servers. -/
def bareAck : Bytes :=
  [2, 1, 6, 0, 0, 0, 0, 7] ++ List.replicate 228 0 ++ [99, 130, 83, 99] ++
    [53, 1, 5, 1, 4, 255, 255, 255, 0, 54, 4, 10, 0, 0, 1, 51, 4, 0, 0, 3, 232, 255]

/-- A client that had a lease with the DNS server 8.8.8.8 and has asked for a new address. -/
def againRequesting : Client := { requestingClient with dns := some ⟨8, 8, 8, 8⟩ }

set_option maxRecDepth 8000 in
/-- C115 fails in these: a client bound by an ACK with a DNS server reports it still when the lease has ended and the client
looks for a new one; and a client bound by an ACK without a DNS server reports that of an earlier lease. -/
theorem C115_stale :
    let w := queueWorld [0, 0, 0, 0] [⟨server, sampleAck⟩]
    let s1 := runDhcp false 3 3 [.process 100] (w, requestingClient)
    let s2 := runDhcp false 3 3 [.process 100, .process 1000] (w, requestingClient)
    let s3 := runDhcp false 3 3 [.process 100] (queueWorld [0, 0, 0, 0] [⟨server, bareAck⟩], againRequesting)
    (s1.2.hasLease = true ∧ s1.2.dnsServer = some ⟨8, 8, 8, 8⟩) ∧
    (s2.2.hasLease = false ∧ s2.2.leasedIp = none ∧ s2.2.dnsServer = some ⟨8, 8, 8, 8⟩) ∧
    ((Dhcp.contents bareAck 6 (fun n => n % 4 == 0 && 4 ≤ n) 4).toOption = some none ∧ s3.2.hasLease = true ∧ s3.2.dnsServer = some ⟨8, 8, 8, 8⟩) := by
  refine ⟨⟨by decide +kernel, by decide +kernel⟩, ⟨by decide +kernel, by decide +kernel, by decide +kernel⟩,
    by decide +kernel, by decide +kernel, by decide +kernel⟩

end Verif.Thm
