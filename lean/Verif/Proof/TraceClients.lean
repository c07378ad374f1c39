import Verif.Proof.TraceProgs
/-!
# The accesses of the clients
-/
namespace Verif.Thm
open Hl
open _root_.Verif.Spec (Device Access errorOf traceBus OfSocket OfCommon OnlyWrites Reported)

section
variable {σ α : Type} {b : Bus σ} {sn : Sn} {W : Access → Prop} (hb : Device b) (hW : ∀ a, OfSocket sn a → W a)
include hb hW

theorem t0_udpReaderDone (u : UdpReader) (hu : u.inner.sn = sn) : T0 W (fun _ => True) (udpReaderDone (traceBus b) u) :=
  closed_udpReaderDone (closed_trace hb hW) u hu
theorem t0_tcpReaderDone (r : Ptrs) (hr : r.sn = sn) : T0 W (fun _ => True) (tcpReaderDone (traceBus b) r) :=
  closed_tcpReaderDone (closed_trace hb hW) r hr
theorem t0_writerSend (r : Ptrs) (hr : r.sn = sn) : T0 W (fun _ => True) (writerSend (traceBus b) r) :=
  closed_writerSend (closed_trace hb hW) r hr
theorem t0_setSnDest (a : SockAddr) : T0 W (fun _ => True) ((traceBus b).setSnDest sn a) := closed_setSnDest (closed_trace hb hW) a
theorem t0_setSnIr (v : UInt8) : T0 W (fun _ => True) ((traceBus b).setSnIr sn v) := by
  unfold Bus.setSnIr; exact t0_write hb _ _ _ (own_write hW (.inl rfl) _ _)
theorem t0_setSnImr (v) : T0 W (fun _ => True) ((traceBus b).setSnImr sn v) := by
  unfold Bus.setSnImr; exact t0_write hb _ _ _ (own_write hW (.inl rfl) _ _)
theorem t0_setSnDhar (v) : T0 W (fun _ => True) ((traceBus b).setSnDhar sn v) := by
  unfold Bus.setSnDhar; exact t0_write hb _ _ _ (own_write hW (.inl rfl) _ _)
theorem t0_setSnTtl (v) : T0 W (fun _ => True) ((traceBus b).setSnTtl sn v) := by
  unfold Bus.setSnTtl; exact t0_write hb _ _ _ (own_write hW (.inl rfl) _ _)
theorem t0_udpBind (dbg : Bool) (fuel : Nat) (port : UInt16) : T0 W (fun _ => True) (udpBind dbg fuel (traceBus b) sn port) :=
  closed_udpBind (closed_trace hb hW) dbg fuel port
omit hW
theorem t0_snIr : T0 W (fun _ => True) ((traceBus b).snIr sn) := by
  unfold Bus.snIr; exact .bind (t0_read hb _ _ _) fun _ _ => .pure trivial
theorem t0_simr : T0 W (fun _ => True) (traceBus b).simr := by
  unfold Bus.simr; exact .bind (t0_read hb _ _ _) fun _ _ => .pure trivial
theorem t0_setSimr (h : ∀ a, OfCommon 0x18 1 a → W a) (v) : T0 W (fun _ => True) ((traceBus b).setSimr v) := by
  unfold Bus.setSimr; exact t0_write hb _ _ _ fun _ => h _ ⟨rfl, rfl, rfl⟩
theorem t0_setSipr (h : ∀ a, OfCommon 0x0F 4 a → W a) (v) : T0 W (fun _ => True) ((traceBus b).setSipr v) := by
  unfold Bus.setSipr; exact t0_write hb _ _ _ fun _ => h _ ⟨rfl, rfl, rfl⟩
theorem t0_setGar (h : ∀ a, OfCommon 0x01 4 a → W a) (v) : T0 W (fun _ => True) ((traceBus b).setGar v) := by
  unfold Bus.setGar; exact t0_write hb _ _ _ fun _ => h _ ⟨rfl, rfl, rfl⟩
theorem t0_setSubr (h : ∀ a, OfCommon 0x05 4 a → W a) (v) : T0 W (fun _ => True) ((traceBus b).setSubr v) := by
  unfold Bus.setSubr; exact t0_write hb _ _ _ fun _ => h _ ⟨rfl, rfl, rfl⟩
end

/-! ## DNS -/
section
open Dns
variable {σ : Type} {b : Bus σ} {W : Access → Prop} (hb : Device b)
include hb

theorem t0_sendQuery {sn : Sn} (hW : ∀ a, OfSocket sn a → W a) (r : Ptrs) (hr : r.sn = sn) (h : Header) :
    T0 W (fun _ => True) (sendQuery (traceBus b) r h) := by
  unfold sendQuery
  exact .ite (fun _ => .pure trivial) fun _ => .bind (t0_writerSend hb hW r hr) fun _ _ => .pure trivial
theorem t0_query (dbg : Bool) (fuel : Nat) (c : Dns.Client) (hW : ∀ a, OfSocket c.sn a → W a) (qs : List (Qtype × Bytes)) :
    T0 W (fun _ => True) (query dbg fuel (traceBus b) c qs) := by
  unfold query
  refine .bind (t0_udpBind hb hW _ _ _) fun _ _ => .bind (t0_setSnDest hb hW _) fun _ _ => .bind (t0_socketWriter hb hW) fun r hr => ?_
  refine .bind (t0_onWriter hb hW r hr _ (wp_queryProg _ _)) fun x hx => .bind (t0_sendQuery hb hW _ hx _) fun _ _ => .pure trivial
theorem t0_mdnsQuery (fuel : Nat) (c : MdnsClient) (hW : ∀ a, OfSocket c.sn a → W a) (qs : List (Qtype × Bytes)) :
    T0 W (fun _ => True) (mdnsQuery fuel (traceBus b) c qs) := by
  have h := closed_trace (W := W) hb hW
  unfold mdnsQuery
  refine .bind (t0_setSnDhar hb hW _) fun _ _ => .bind (t0_setSnTtl hb hW _) fun _ _ => .bind (closed_setSnCr h _) fun _ _ => ?_
  refine .bind (closed_waitStatus h _ _) fun _ _ => .bind (closed_setSnPort h _) fun _ _ => .bind (closed_setSnMr h _) fun _ _ => ?_
  refine .bind (closed_setSnCr h _) fun _ _ => .bind (closed_waitStatus h _ _) fun _ _ => .bind (t0_setSnDest hb hW _) fun _ _ => ?_
  refine .bind (t0_socketWriter hb hW) fun r hr => ?_
  refine .bind (t0_onWriter hb hW r hr _ (wp_queryProg _ _)) fun x hx => .bind (t0_sendQuery hb hW _ hx _) fun _ _ => .pure trivial
theorem t0_response (dbg : Bool) (fuel : Nat) (sn : Sn) (hW : ∀ a, OfSocket sn a → W a) (cap : Nat) (id : Option UInt16) :
    T0 W (fun r => r.reader.inner.sn = sn) (response dbg fuel (traceBus b) sn cap id) := by
  unfold response
  refine .bind (t0_udpReader hb hW dbg) fun u hu => .bind (t0_onUdpReader hb hW u hu _ (rp_responseProg _ _)) ?_
  rintro ⟨h, u'⟩ hu'
  rcases h with _ | h
  · exact .bind (t0_udpReaderDone hb hW _ hu') fun _ _ => .throw fun _ => by nofun
  · exact .pure hu'
theorem t1_nextRr (fuel : Nat) (sn : Sn) (hW : ∀ a, OfSocket sn a → W a) :
    T1 W (fun r : Response => r.reader.inner.sn = sn) (fun _ => True) (nextRr fuel (traceBus b)) := by
  rintro ⟨s, r⟩ hr
  unfold nextRr
  dsimp only
  split
  · exact ⟨[], (List.append_nil _).symm, only_nil, reported_nil (fun _ h => nomatch h), hr, fun _ _ => trivial⟩
  · obtain ⟨es, h1, h2, h3, h4, _⟩ := t2_run hb hW _ (rp_readRr fuel r.cap) (s, r.reader.inner) hr
    rw [udpReader_run_any]
    refine ⟨es, h1, h2, reported_map h3 (fun h x hx => ?_) (fun x hx => ?_), h4, fun _ _ => trivial⟩
    · rcases e : ((readRr fuel r.cap).run (tcpReaderOps (traceBus b)) (s, r.reader.inner)).1 with e' | a
      · dsimp only at hx; rw [e] at hx; injection hx with hx; exact h x (by rw [e, hx])
      · dsimp only at hx; rw [e] at hx; exact nomatch hx
    · dsimp only; rw [hx]; rfl
end

/-! ## SNTP -/
section
open Sntp
variable {σ : Type} {b : Bus σ} {W : Access → Prop} (hb : Device b) (c : Sntp.Client) (hW : ∀ a, OfSocket c.sn a → W a)
include hb hW

theorem t0_sntpRequest : T0 W (fun _ => True) (Sntp.request (traceBus b) c) := by
  unfold Sntp.request
  refine .bind (t0_socketWriter hb hW) fun r hr => .bind (t0_onWriter hb hW r hr _ (Wp.doWriteAll _)) fun x hx => ?_
  exact t0_writerSend hb hW _ hx
theorem t0_sntpSetup (h : ∀ a, OfCommon 0x18 1 a → W a) (dbg : Bool) (fuel : Nat) :
    T0 W (fun _ => True) (Sntp.setupSocket dbg fuel (traceBus b) c) := by
  unfold Sntp.setupSocket
  refine .bind (t0_simr hb) fun _ _ => .bind (t0_setSimr hb h _) fun _ _ => .bind (t0_setSnImr hb hW _) fun _ _ => ?_
  refine .bind (closed_close (closed_trace hb hW)) fun _ _ => .bind (t0_udpBind hb hW _ _ _) fun _ _ => t0_setSnDest hb hW _
theorem t0_onRecvInterrupt (dbg : Bool) : T0 W (fun _ => True) (onRecvInterrupt dbg (traceBus b) c) := by
  unfold onRecvInterrupt
  refine .bind (Q := fun _ => True) ?_ fun _ _ => .bind (t0_udpReader hb hW dbg) fun u hu => ?_
  · unfold Sntp.clearIr
    exact .bind (t0_snIr hb) fun _ _ => .ite (fun _ => t0_setSnIr hb hW _) fun _ => .pure trivial
  · unfold onDatagram
    refine .ite (fun _ => .bind (t0_udpReaderDone hb hW _ hu) fun _ _ => .throw fun _ => by nofun) fun _ => ?_
    refine .bind (t0_onUdpReader hb hW u hu _ (Rp.doReadExact _)) fun x hx => .bind (t0_udpReaderDone hb hW _ hx) fun _ _ => ?_
    unfold replyOf
    split
    · exact .pure trivial
    · exact .throw fun _ => by nofun
end

/-! ## DHCP -/
section
open Dhcp
variable {σ : Type} {b : Bus σ} {W : Access → Prop} {sn : Sn} (hb : Device b) (hW : ∀ a, OfSocket sn a → W a)
  (hG : ∀ a, OfCommon 0x01 4 a → W a) (hM : ∀ a, OfCommon 0x05 4 a → W a) (hI : ∀ a, OfCommon 0x0F 4 a → W a)

/-- With a client on the socket. -/
abbrev TD {α : Type} (W : Access → Prop) (sn : Sn) (m : M ((σ × List Access) × Dhcp.Client) α) : Prop :=
  T1 W (fun c : Dhcp.Client => c.sn = sn) (fun _ => True) m

theorem td_onBus {α : Type} {Q : α → Prop} {m : M (σ × List Access) α} (h : T0 W Q m) :
    T1 W (fun c : Dhcp.Client => c.sn = sn) Q (Dhcp.onBus m) := T1.onBus h
theorem td_modC {f : Dhcp.Client → Dhcp.Client} (h : ∀ c, (f c).sn = c.sn) : TD (σ := σ) W sn (Dhcp.modC f) :=
  T1.modC fun c hc => (h c).trans hc
theorem td_getC : T1 W (fun c : Dhcp.Client => c.sn = sn) (fun c => c.sn = sn) (Dhcp.getC : M ((σ × List Access) × Dhcp.Client) _) := T1.getC
theorem nextCall_nb (dbg : Bool) (c : Dhcp.Client) (secs : UInt32) : NB (c.nextCall dbg secs) := by
  unfold Client.nextCall Client.timeoutElapsed
  split
  · rename_i h
    split at h
    · exact nomatch h
    · split at h
      · injection h with h; exact h ▸ fun x h => nomatch h
      · exact nomatch h
  · exact fun x h => nomatch h
  · exact fun x h => nomatch h

include hb hW

theorem td_discover (hI : ∀ a, OfCommon 0x0F 4 a → W a) (dbg : Bool) (fuel : Nat) (secs : UInt32) :
    TD W sn (discover dbg fuel (traceBus b) secs) := by
  unfold discover
  refine .bind (td_modC fun _ => rfl) fun _ _ => .bind td_getC fun c hc => ?_
  subst hc
  refine .bind (td_onBus (t0_setSipr hb hI _)) fun _ _ => .bind (td_onBus (t0_udpBind hb hW _ _ _)) fun _ _ => ?_
  refine .bind (td_onBus (Q := fun _ => True) ?_) fun _ _ => td_modC fun _ => rfl
  unfold sendDhcpDiscover
  refine .bind (t0_socketWriter hb hW) fun r hr => .bind (t0_onWriter hb hW r hr _ (wp_dhcpDiscover _ _ _)) fun x hx => ?_
  exact closed_udpWriterSendTo (closed_trace hb hW) x.2 hx _ _
theorem td_request : TD W sn (Dhcp.request (traceBus b)) := by
  unfold Dhcp.request
  refine .bind (td_modC fun _ => rfl) fun _ _ => .bind td_getC fun c hc => ?_
  subst hc
  refine td_onBus ?_
  unfold sendDhcpRequest
  refine .bind (t0_socketWriter hb hW) fun r hr => .bind (t0_onWriter hb hW r hr _ (wp_dhcpRequest _ _ _ _ _)) fun x hx => ?_
  exact t0_writerSend hb hW _ hx
theorem t0_dhcpRecv (dbg : Bool) (xid : UInt32) : T0 W (fun o => ∀ u, o = some u → u.inner.sn = sn) (Dhcp.recv dbg (traceBus b) sn xid) := by
  have := Tr.step (op := udpReader dbg (traceBus b) sn) (Q' := fun o => ∀ u : UdpReader, o = some u → u.inner.sn = sn) (f := fun r => match r with
    | .ok u => recvCheck (traceBus b) u xid
    | .error .wouldBlock => fun s => (.ok none, s)
    | .error e => fun s => (.error e, s)) (t0_udpReader hb hW dbg) (fun _ _ => rfl) fun r hr hq => by
      rcases r with e | u
      · have he : ∀ x, e ≠ .bus x := fun x hx => hr x (by rw [hx])
        cases e
        case wouldBlock => exact .pure fun _ h => nomatch h
        case bus x => exact absurd rfl (he x)
        all_goals exact .throw fun _ => by nofun
      · have hu := hq u rfl
        dsimp only
        unfold recvCheck
        refine .ite (fun _ => .pure fun _ h => nomatch h) fun _ => .bind (t0_onUdpReader hb hW u hu _ (rp_checkProg _)) fun x hx => .pure ?_
        intro u' h
        split at h
        · injection h with h; exact h ▸ hx
        · exact nomatch h
  intro s hs
  have := this s hs
  unfold Dhcp.recv
  dsimp only at this
  rcases e : udpReader dbg (traceBus b) sn s with ⟨e' | u, s'⟩ <;> rw [e] at this
  · cases e' <;> exact this
  · exact this
theorem td_onOffer (secs : UInt32) (u : UdpReader) (hu : u.inner.sn = sn) : TD W sn (onOffer (traceBus b) secs u) := by
  unfold onOffer
  refine .bind (td_onBus (t0_onUdpReader hb hW u hu _ rp_pktYiaddr)) fun r1 h1 => .bind (td_modC fun _ => rfl) fun _ _ => ?_
  refine .bind (td_onBus (t0_onUdpReader hb hW _ h1 _ (rp_dhcpServer _))) fun r2 h2 => .bind (td_modC fun _ => rfl) fun _ _ => ?_
  refine .bind (td_onBus (t0_udpReaderDone hb hW _ h2)) fun _ _ => .bind (td_request hb hW) fun _ _ => td_modC fun _ => rfl
omit hW in
include hI in
theorem td_ackBound (o : AckOpts) : TD W sn (ackBound (traceBus b) o) := by
  unfold ackBound
  refine .bind td_getC fun c _ => .bind (Q := fun _ => True) (.ite (fun _ => td_onBus (t0_setSipr hb hI _)) fun _ => .pure trivial) fun _ _ => ?_
  exact .bind (td_modC fun _ => rfl) fun _ _ => td_modC fun _ => rfl
omit hb hW in
theorem td_next (dbg : Bool) (c : Dhcp.Client) (secs : UInt32) :
    TD (σ := σ) W sn (M.ofExcept ((c.nextCall dbg secs).map some)) :=
  .ofExcept (fun x hx => by
    rcases e : c.nextCall dbg secs with e' | v
    · rw [e] at hx; injection hx with hx; exact nextCall_nb dbg c secs x (by rw [e, hx])
    · rw [e] at hx; exact nomatch hx) fun _ _ => trivial
omit hW in
include hI hG in
theorem td_ackGateway (dbg : Bool) (secs : UInt32) (o : AckOpts) : TD W sn (ackGateway dbg (traceBus b) secs o) := by
  unfold ackGateway
  refine .bind td_getC fun c _ => ?_
  split
  · exact .bind (td_onBus (t0_setGar hb hG _)) fun _ _ => .bind (td_ackBound hb hI o) fun _ _ => .pure trivial
  · exact .ite (fun _ => .bind (td_ackBound hb hI o) fun _ _ => .pure trivial) fun _ => td_next _ _ _
omit hW in
include hI hG hM in
theorem td_ackMask (dbg : Bool) (secs : UInt32) (o : AckOpts) : TD W sn (ackMask dbg (traceBus b) secs o) := by
  unfold ackMask
  refine .bind td_getC fun c _ => ?_
  split
  · exact .bind (td_onBus (t0_setSubr hb hM _)) fun _ _ => td_ackGateway hb hG hI _ _ _
  · exact .ite (fun _ => td_ackGateway hb hG hI _ _ _) fun _ => td_next _ _ _
include hI hG hM in
theorem td_onAck (dbg : Bool) (secs : UInt32) (u : UdpReader) (hu : u.inner.sn = sn) (cache : Cache) :
    TD W sn (onAck dbg (traceBus b) secs u cache) := by
  unfold onAck
  refine .bind (td_onBus (t0_onUdpReader hb hW u hu _ (rp_ackProg _))) fun r hr => ?_
  split
  · exact .bind td_getC fun c _ => td_next _ _ _
  · exact .bind (td_modC fun _ => rfl) fun _ _ => .bind (td_onBus (t0_udpReaderDone hb hW _ hr)) fun _ _ => td_ackMask hb hG hM hI _ _ _
include hI hG hM in
theorem td_onReply (dbg : Bool) (fuel : Nat) (secs : UInt32) (u : UdpReader) (hu : u.inner.sn = sn) :
    TD W sn (onReply dbg fuel (traceBus b) secs u) := by
  unfold onReply
  refine .bind (td_onBus (t0_onUdpReader hb hW u hu _ (rp_msgType _))) fun r hr => ?_
  split
  · exact td_onAck hb hW hG hM hI _ _ _ hr _
  · exact .bind (td_onBus (t0_udpReaderDone hb hW _ hr)) fun _ _ => .bind (td_discover hb hW hI _ _ _) fun _ _ => .pure trivial
  · exact .bind (td_onBus (t0_udpReaderDone hb hW _ hr)) fun _ _ => .pure trivial
include hI hG hM in
theorem td_handle (dbg : Bool) (fuel : Nat) (secs : UInt32) (u : UdpReader) (hu : u.inner.sn = sn) :
    TD W sn (handle dbg fuel (traceBus b) secs u) := by
  unfold handle
  refine .bind td_getC fun c _ => ?_
  split
  · exact .bind (td_onOffer hb hW _ _ hu) fun _ _ => .pure trivial
  · exact td_onReply hb hW hG hM hI _ _ _ _ hu
  · exact td_onReply hb hW hG hM hI _ _ _ _ hu
  · exact td_onReply hb hW hG hM hI _ _ _ _ hu
  · exact .bind (td_onBus (t0_udpReaderDone hb hW _ hu)) fun _ _ => .pure trivial
include hI hG hM in
theorem td_packets (dbg : Bool) (fuel : Nat) (secs : UInt32) (n : Nat) : TD W sn (packets dbg fuel (traceBus b) secs n) := by
  induction n with
  | zero => exact .throw fun _ => by nofun
  | succ n ih =>
    unfold packets
    refine .bind td_getC fun c hc => ?_
    rw [hc]
    refine .bind (td_onBus (t0_dhcpRecv hb hW _ _)) fun r hr => ?_
    split
    · exact .pure trivial
    · refine .bind (td_handle hb hW hG hM hI _ _ _ _ (hr _ rfl)) fun x _ => ?_
      split
      · exact .pure trivial
      · exact ih
include hI in
theorem td_leaseTimers (dbg : Bool) (fuel : Nat) (secs : UInt32) : TD W sn (leaseTimers dbg fuel (traceBus b) secs) := by
  unfold leaseTimers
  refine .bind td_getC fun c _ => ?_
  dsimp only
  refine .ite (fun _ => td_discover hb hW hI _ _ _) fun _ => .ite (fun _ => ?_) fun _ => .ite (fun _ => ?_) fun _ => .pure trivial
  · exact .bind (td_request hb hW) fun _ _ => td_modC fun _ => rfl
  · exact .bind (td_request hb hW) fun _ _ => td_modC fun _ => rfl
include hI in
theorem td_timers (dbg : Bool) (fuel : Nat) (secs : UInt32) : TD W sn (timers dbg fuel (traceBus b) secs) := by
  unfold timers
  refine .bind td_getC fun c _ => .bind (Q := fun _ => True) (.ofExcept ?_ fun _ _ => trivial) fun e _ => ?_
  · unfold Client.timeoutElapsed
    split
    · exact fun x h => nomatch h
    · split
      · exact fun x h => nomatch h
      · exact fun x h => nomatch h
  · split
    · exact .ite (fun _ => td_discover hb hW hI _ _ _) fun _ => .pure trivial
    · split
      · exact td_discover hb hW hI _ _ _
      · exact .pure trivial
      · exact .pure trivial
      · exact td_leaseTimers hb hW hI _ _ _
include hI hG hM in
theorem td_process (dbg : Bool) (fuel n : Nat) (secs : UInt32) : TD W sn (Dhcp.process dbg fuel n (traceBus b) secs) := by
  unfold Dhcp.process
  refine .bind td_getC fun c hc => ?_
  subst hc
  refine .bind (td_onBus (Q := fun _ => True) ?_) fun _ _ => .bind (td_onBus (Q := fun _ => True) ?_) fun _ _ => .ite (fun _ => .pure trivial) fun _ => ?_
  · unfold Dhcp.clearIr
    exact .bind (t0_snIr hb) fun _ _ => .ite (fun _ => t0_setSnIr hb hW _) fun _ => .pure trivial
  · unfold linkDown
    refine .ite (fun _ => .bind (Q := fun _ => True) ?_ fun _ _ => .pure trivial) fun _ => .pure trivial
    unfold Bus.phycfgr; exact .bind (t0_read hb _ _ _) fun _ _ => .pure trivial
  · refine .bind (td_packets hb hW hG hM hI _ _ _ _) fun r _ => ?_
    split
    · exact .pure trivial
    · exact .bind (td_timers hb hW hI _ _ _) fun _ _ => .bind td_getC fun c _ => .ofExcept (nextCall_nb _ _ _) fun _ _ => trivial
omit hW
include hI in
theorem t0_dhcpSetup (c : Dhcp.Client) (hW : ∀ a, OfSocket c.sn a → W a) (h : ∀ a, OfCommon 0x18 1 a → W a) (dbg : Bool) (fuel : Nat) :
    T0 W (fun _ => True) (Dhcp.setupSocket dbg fuel (traceBus b) c) := by
  unfold Dhcp.setupSocket
  refine .bind (t0_simr hb) fun _ _ => .bind (t0_setSimr hb h _) fun _ _ => .bind (t0_setSnImr hb hW _) fun _ _ => ?_
  refine .bind (closed_close (closed_trace hb hW)) fun _ _ => .bind (t0_setSipr hb hI _) fun _ _ => t0_udpBind hb hW _ _ _
end

/-! ## MQTT -/
section
open Mqtt
variable {σ : Type} {b : Bus σ} {W : Access → Prop} {sn : Sn} (hb : Device b) (hW : ∀ a, OfSocket sn a → W a)

/-- With a client on the socket. -/
abbrev TM {α : Type} (W : Access → Prop) (sn : Sn) (m : M ((σ × List Access) × Mqtt.Client) α) : Prop :=
  T1 W (fun c : Mqtt.Client => c.sn = sn) (fun _ => True) m

theorem tm_onBus {α : Type} {Q : α → Prop} {m : M (σ × List Access) α} (h : T0 W Q m) :
    T1 W (fun c : Mqtt.Client => c.sn = sn) Q (Mqtt.onBus m) := T1.onBus h
theorem tm_modC {f : Mqtt.Client → Mqtt.Client} (h : ∀ c, (f c).sn = c.sn) : TM (σ := σ) W sn (Mqtt.modC f) :=
  T1.modC fun c hc => (h c).trans hc
theorem tm_getC : T1 W (fun c : Mqtt.Client => c.sn = sn) (fun c => c.sn = sn) (Mqtt.getC : M ((σ × List Access) × Mqtt.Client) _) := T1.getC

theorem t0_mapW5500 {α : Type} {Q : α → Prop} {m : M (σ × List Access) α} (h : T0 W Q m) :
    T0 W (fun x => ∀ a, x = .ok a → Q a) (mapW5500 m) := by
  refine Tr.map (Q' := fun x : Except MErr α => ∀ a, x = .ok a → Q a) h (fun r => match r with
    | .ok a => .ok (.ok a)
    | .error .outOfMemory => .ok (.error .outOfMemory)
    | .error .unexpectedEof => .ok (.error .decode)
    | .error .wouldBlock => .error .panic
    | .error e => .error e) (fun t => ?_) (fun r hr => ?_) (fun _ => rfl) (fun r hr x hx a ha => ?_)
  · unfold mapW5500
    rcases m t with ⟨e | a, t'⟩
    · cases e <;> rfl
    · rfl
  · rcases r with e | a
    · cases e
      case bus x => exact absurd rfl (hr x)
      all_goals exact fun x h => nomatch h
    · exact fun x h => nomatch h
  · rcases r with e | v
    · subst ha
      cases e <;> first | exact nomatch hx | (injection hx with hx; exact nomatch hx)
    · subst ha; injection hx with hx; injection hx with hx; exact hx ▸ hr v rfl
/-- The reader of a published message is one of the socket. -/
def PubOf (sn : Sn) (x : Except MErr Event) : Prop := ∀ r, x = .ok (.publish r) → r.reader.sn = sn
theorem tm_checkTimeout (dbg : Bool) (secs : UInt32) : T1 (σ := σ) W (fun c : Mqtt.Client => c.sn = sn) (PubOf sn) (checkTimeout dbg secs) := by
  unfold checkTimeout
  refine .bind tm_getC fun c _ => .bind (Q := fun _ => True) (.ofExcept ?_ fun _ _ => trivial) fun e _ => ?_
  · unfold Client.elapsedSecs
    split
    · exact fun x h => nomatch h
    · split
      · exact fun x h => nomatch h
      · exact fun x h => nomatch h
  · split
    · exact .ite (fun _ => .bind (tm_modC fun _ => rfl) fun _ _ => .pure (by nofun)) fun _ => .pure (by nofun)
    · exact .pure (by nofun)

include hb hW

theorem tm_recvFinish (r : Ptrs) (hr : r.sn = sn) (o : RecvOut) : T1 W (fun c : Mqtt.Client => c.sn = sn) (fun x => ∀ r, x = .ok (some (.publish r)) → r.reader.sn = sn) (recvFinish (traceBus b) r o) := by
  unfold recvFinish
  split
  · exact .pure (by nofun)
  · exact .bind (tm_modC fun _ => rfl) fun _ _ => .pure (by nofun)
  · exact .pure (by nofun)
  · refine .bind (tm_onBus (t0_tcpReaderDone hb hW r hr)) fun _ _ => ?_
    split
    · exact .bind (tm_modC fun _ => rfl) fun _ _ => .pure (by nofun)
    · exact .ite (fun _ => .bind (tm_modC fun _ => rfl) fun _ _ => .pure (by nofun)) fun _ => .bind (tm_modC fun _ => rfl) fun _ _ => .pure (by nofun)
  · exact .bind (tm_onBus (t0_tcpReaderDone hb hW r hr)) fun _ _ => .pure (by nofun)
  · exact .bind (tm_onBus (t0_tcpReaderDone hb hW r hr)) fun _ _ => .pure (by nofun)
  · exact .pure (by intro r' h; injection h with h; injection h with h; injection h with h; exact h ▸ hr)
  · exact .bind (tm_onBus (t0_tcpReaderDone hb hW r hr)) fun _ _ => .pure (by nofun)
theorem tm_recv (dbg : Bool) (r : Ptrs) (hr : r.sn = sn) : T1 W (fun c : Mqtt.Client => c.sn = sn) (fun x => ∀ r, x = .ok (some (.publish r)) → r.reader.sn = sn) (Mqtt.recv dbg (traceBus b) r) := by
  unfold Mqtt.recv
  refine .bind tm_getC fun c _ => .bind (tm_onBus (t0_mapW5500 (t0_onTcpReader hb hW r hr _ (rp_recvProg _ _)))) fun x hx => ?_
  split
  · exact .pure (by nofun)
  · exact tm_recvFinish hb hW _ (hx _ rfl) _
theorem t0_tryReader (dbg : Bool) : T0 W (fun o => ∀ r, o = some r → r.sn = sn) (tryReader dbg (traceBus b) sn) := by
  refine Tr.map (Q' := fun o => ∀ r, o = some r → r.sn = sn) (t0_tcpReader hb hW dbg) (fun r => match r with
    | .ok a => .ok (some a)
    | .error .wouldBlock => .ok none
    | .error e => .error e) (fun t => ?_) (fun r hr => ?_) (fun _ => rfl) (fun r hr x hx a ha => ?_)
  · unfold tryReader
    rcases tcpReader dbg (traceBus b) sn t with ⟨e | a, t'⟩
    · cases e <;> rfl
    · rfl
  · rcases r with e | a
    · cases e
      case bus x => exact absurd rfl (hr x)
      all_goals exact fun x h => nomatch h
    · exact fun x h => nomatch h
  · rcases r with e | v
    · subst ha
      cases e <;> first | exact nomatch hx | (injection hx with hx; exact nomatch hx)
    · subst ha; injection hx with hx; injection hx with hx; exact hx ▸ hr v rfl
theorem t0_sendPacket (r : Ptrs) (hr : r.sn = sn) (p : WProg Unit) (hp : Wp p) : T0 W (fun _ => True) (sendPacket (traceBus b) r p) := by
  unfold sendPacket
  exact .bind (t0_onWriter hb hW r hr p hp) fun x hx => t0_writerSend hb hW _ hx
theorem tm_sendConnect (secs : UInt32) : TM W sn (sendConnect (traceBus b) secs) := by
  unfold sendConnect
  refine .bind tm_getC fun c hc => ?_
  subst hc
  refine .bind (tm_onBus (Q := fun _ => True) ?_) fun _ _ => .bind (tm_onBus (t0_socketWriter hb hW)) fun r hr => ?_
  · unfold Bus.snRxbufSize; exact .bind (t0_read hb _ _ _) fun _ _ => .pure trivial
  · refine .bind (tm_onBus (t0_mapW5500 (t0_sendPacket hb hW r hr _ (wp_connectProg _ _)))) fun x _ => ?_
    split
    · exact .pure trivial
    · exact .bind (tm_modC fun _ => rfl) fun _ _ => .pure trivial
theorem tm_receive (dbg : Bool) (secs : UInt32) : T1 W (fun c : Mqtt.Client => c.sn = sn) (PubOf sn) (receive dbg (traceBus b) secs) := by
  unfold receive
  refine .bind tm_getC fun c hc => ?_
  rw [hc]
  refine .bind (tm_onBus (t0_tryReader hb hW _)) fun r hr => ?_
  split
  · exact tm_checkTimeout _ _
  · refine .bind (tm_recv hb hW _ _ (hr _ rfl)) fun x hx => ?_
    split
    · exact .pure (by nofun)
    · exact .pure (by intro r' h; injection h with h; exact hx _ (by rw [h]))
    · exact tm_checkTimeout _ _
theorem tm_onInterrupt (dbg : Bool) (secs : UInt32) (ir : SocketInterrupt) : T1 W (fun c : Mqtt.Client => c.sn = sn) (PubOf sn) (onInterrupt dbg (traceBus b) secs ir) := by
  unfold onInterrupt
  refine .ite (fun _ => .bind (tm_modC fun _ => rfl) fun _ _ => .pure (by nofun)) fun _ => .ite (fun _ => ?_) fun _ => ?_
  · exact .bind (tm_sendConnect hb hW _) fun x _ => .pure (by intro r' h; cases x <;> first | exact nomatch h | (injection h with h; exact nomatch h))
  · exact .ite (fun _ => .bind (tm_modC fun _ => rfl) fun _ _ => .pure (by nofun)) fun _ => tm_receive hb hW _ _
theorem tm_process (h : ∀ a, OfCommon 0x18 1 a → W a) (dbg : Bool) (fuel : Nat) (secs : UInt32) :
    T1 W (fun c : Mqtt.Client => c.sn = sn) (PubOf sn) (Mqtt.process dbg fuel (traceBus b) secs) := by
  unfold Mqtt.process
  refine .bind tm_getC fun c hc => .ite (fun _ => ?_) fun _ => ?_
  · refine .bind (Q := fun _ => True) ?_ fun _ _ => .pure (by nofun)
    unfold tcpConnectMqtt
    refine .bind tm_getC fun c hc => ?_
    subst hc
    refine .bind (tm_onBus (t0_simr hb)) fun _ _ => .bind (tm_onBus (t0_setSimr hb h _)) fun _ _ => .bind (tm_onBus (t0_setSnImr hb hW _)) fun _ _ => ?_
    refine .bind (tm_onBus (closed_tcpConnect (closed_trace hb hW) _ _ _ _)) fun _ _ => .bind (tm_modC fun _ => rfl) fun _ _ => .pure trivial
  · rw [hc]
    refine .bind (tm_onBus (t0_snIr hb)) fun ir _ => .ite (fun _ => ?_) fun _ => tm_receive hb hW _ _
    exact .bind (tm_onBus (t0_setSnIr hb hW _)) fun _ _ => tm_onInterrupt hb hW _ _ _
theorem tm_connected (dbg : Bool) (fuel : Nat) (secs : UInt32) (s : σ × List Access) (c : Mqtt.Client) (hc : c.sn = sn) (hn : c.state ≠ .init) :
    ∃ es, (Mqtt.process dbg fuel (traceBus b) secs (s, c)).2.1.2 = s.2 ++ es ∧ OnlyWrites W es := by
  have h : T1 W (fun c : Mqtt.Client => c.sn = sn) (PubOf sn) (Mqtt.onBus ((traceBus b).snIr sn) >>= fun ir =>
      if ir.anyRaised then Mqtt.onBus ((traceBus b).setSnIr sn ir.raw) >>= fun _ => onInterrupt dbg (traceBus b) secs ir
      else receive dbg (traceBus b) secs) := by
    refine .bind (tm_onBus (t0_snIr hb)) fun ir _ => .ite (fun _ => ?_) fun _ => tm_receive hb hW _ _
    exact .bind (tm_onBus (t0_setSnIr hb hW _)) fun _ _ => tm_onInterrupt hb hW _ _ _
  obtain ⟨es, h1, h2, _⟩ := h (s, c) hc
  refine ⟨es, ?_, h2⟩
  rw [← hc] at h1
  rw [← h1]
  unfold Mqtt.process
  rw [M.bind_ok (show (Mqtt.getC : M ((σ × List Access) × Mqtt.Client) _) (s, c) = (.ok c, (s, c)) from rfl), if_neg hn]
theorem tm_publish (t p : Bytes) : TM W sn (publish (traceBus b) t p) := by
  unfold publish
  refine .bind tm_getC fun c hc => .ite (fun _ => ?_) fun _ => .pure trivial
  rw [hc]
  refine .bind (tm_onBus (t0_socketWriter hb hW)) fun r hr => ?_
  exact .mono (tm_onBus (t0_mapW5500 (t0_sendPacket hb hW r hr _ (wp_publishProg _ _)))) fun _ _ => trivial
theorem tm_sendFilter (f : Bytes) (p : UInt16 → WProg Unit) (hp : ∀ i, Wp (p i)) : TM W sn (sendFilter (traceBus b) f p) := by
  unfold sendFilter
  refine .bind tm_getC fun c hc => .ite (fun _ => ?_) fun _ => .pure trivial
  rw [hc]
  refine .bind (tm_onBus (t0_socketWriter hb hW)) fun r hr => .bind (tm_modC fun _ => rfl) fun _ _ => .bind tm_getC fun c _ => ?_
  refine .ite (fun _ => .pure trivial) fun _ => .bind (tm_onBus (t0_mapW5500 (t0_sendPacket hb hW r hr _ (hp _)))) fun _ _ => .pure trivial
theorem t0_onPublish {α : Type} (r : PublishReader) (hr : r.reader.sn = sn) (p : RProg α) (hp : Rp p) :
    T0 W (fun x => ∀ a, x = .ok a → a.2.reader.sn = sn) (onPublish (traceBus b) r p) := by
  refine Tr.map (Q' := fun x : Except MErr (α × PublishReader) => ∀ a, x = .ok a → a.2.reader.sn = sn)
    (t0_mapW5500 (t0_onTcpReader hb hW r.reader hr p hp)) (fun x => match x with
    | .ok (.ok (a, r')) => .ok (.ok (a, { r with reader := r' }))
    | .ok (.error e) => .ok (.error e)
    | .error e => .error e) (fun t => ?_) (fun x hx => ?_) (fun _ => rfl) (fun x hx y hy a ha => ?_)
  · unfold onPublish
    rcases mapW5500 (onTcpReader (traceBus b) r.reader p) t with ⟨e | e | ⟨a, r'⟩, t'⟩ <;> rfl
  · rcases x with e | e | ⟨a, r'⟩
    · exact fun y h => hx y (by injection h with h; rw [h])
    · exact fun x h => nomatch h
    · exact fun x h => nomatch h
  · subst ha
    rcases x with e | e | ⟨v, r'⟩
    · exact nomatch hy
    · injection hy with hy; exact nomatch hy
    · injection hy with hy; injection hy with hy; exact hy ▸ hx _ rfl _ rfl
theorem t0_publishDone (dbg : Bool) (r : PublishReader) (hr : r.reader.sn = sn) :
    T0 W (fun _ => True) (publishDone dbg (traceBus b) r) := by
  unfold publishDone
  refine .bind (t0_onPublish hb hW r hr _ (rp_publishDoneProg _ _)) fun x hx => ?_
  split
  · exact .pure trivial
  · exact .bind (t0_tcpReaderDone hb hW _ (hx _ rfl)) fun _ _ => .pure trivial
end

end Verif.Thm
