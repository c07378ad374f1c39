import Verif.Thm.CostDns
import Verif.Model.Dhcp
/-!
# C131: a call of the DHCP client that finds no datagram ends after a fixed number of accesses

`accesses`, `notStatus`, `inDebug` and `NothingReceived` are in `Spec/Cost.lean`.
-/
namespace Verif.Thm
open Hl Dhcp
open _root_.Verif.Spec (Access traceBus accesses notStatus inDebug NothingReceived errorOf)

theorem wc_setAt (off : UInt16) (bs : Bytes) : WC (setAt off bs) 1 := .bind (n := 0) (k := 1) (fun _ => .doWriteAll _) _ (.doSeek _)

theorem wc_prepare (mac : Eui48) (xid : UInt32) : WC (prepareMessage mac xid) 17 :=
  .bind (n := 1) (k := 16) (fun _ => .bind (n := 1) (k := 15) (fun _ => .bind (n := 1) (k := 14) (fun _ => .bind (n := 1) (k := 13) (fun _ =>
  .bind (n := 1) (k := 12) (fun _ => .bind (n := 1) (k := 11) (fun _ => .bind (n := 1) (k := 10) (fun _ => .bind (n := 1) (k := 9) (fun _ =>
  .bind (n := 1) (k := 8) (fun _ => .bind (n := 1) (k := 7) (fun _ => .bind (n := 1) (k := 6) (fun _ => .bind (n := 2) (k := 4) (fun _ =>
  .bind (n := 1) (k := 3) (fun _ => .bind (n := 2) (k := 1) (fun _ => .bind (n := 1) (k := 0) (fun _ => .doSeek _) _ (wc_setAt _ _)) _
    (.bind (n := 1) (k := 1) (fun _ => .doWriteAll _) _ (wc_setAt _ _))) _ (wc_setAt _ _)) _ (.bind (n := 1) (k := 1) (fun _ => .doWriteAll _) _ (wc_setAt _ _))) _
    (wc_setAt _ _)) _ (wc_setAt _ _)) _ (wc_setAt _ _)) _ (wc_setAt _ _)) _ (wc_setAt _ _)) _ (wc_setAt _ _)) _ (wc_setAt _ _)) _ (wc_setAt _ _)) _
    (wc_setAt _ _)) _ (wc_setAt _ _)) _ (wc_setAt _ _)

theorem wc_two (x y : Bytes) : WC (WProg.doWriteAll x >>= fun _ => WProg.doWriteAll y) 2 := .bind (n := 1) (k := 1) (fun _ => .doWriteAll _) _ (.doWriteAll _)

theorem wc_serverId (o : Option Ipv4) : WC (setOptionServerIdOpt o) 2 := by
  cases o
  · exact .ret _
  · exact wc_two _ _

theorem wc_discover (mac : Eui48) (h : Bytes) (xid : UInt32) : WC (dhcpDiscover mac h xid) 23 :=
  .bind (n := 17) (k := 6) (fun _ => .bind (n := 1) (k := 5) (fun _ => .bind (n := 2) (k := 3) (fun _ => .bind (n := 2) (k := 1) (fun _ => .doWriteAll _) _
    (wc_two _ _)) _ (wc_two _ _)) _ (.doWriteAll _)) _ (wc_prepare _ _)

theorem wc_request (mac : Eui48) (ip : Ipv4) (h : Bytes) (o : Option Ipv4) (xid : UInt32) : WC (dhcpRequest mac ip h o xid) 28 :=
  .bind (n := 17) (k := 11) (fun _ => .bind (n := 1) (k := 10) (fun _ => .bind (n := 2) (k := 8) (fun _ => .bind (n := 2) (k := 6) (fun _ =>
    .bind (n := 1) (k := 5) (fun _ => .bind (n := 2) (k := 3) (fun _ => .bind (n := 2) (k := 1) (fun _ => .doWriteAll _) _ (wc_serverId _)) _
    (wc_two _ _)) _ (.doWriteAll _)) _ (wc_two _ _)) _ (wc_two _ _)) _ (.doWriteAll _)) _ (wc_prepare _ _)

section
variable {σ α β : Type} {b : Bus σ} {p : Access → Bool} {sn : Sn} {n k : Nat}

theorem cost_udpWriterSendTo (dbg : Bool) (r : Ptrs) (addr : SockAddr) : Cost p (3 + inDebug dbg 1) (udpWriterSendTo dbg (traceBus b) r addr) :=
  .mono (n := inDebug dbg 1 + (1 + 2)) (.bind (cost_debugAssert _ cost_srIsUdp) fun _ => .bind (cost_setSnDest _) fun _ => cost_writerSend _) (by omega)
theorem cost_setSipr (v) : Cost p 1 ((traceBus b).setSipr v) := by unfold Bus.setSipr; exact .write _ _ _

theorem cost_sendDiscover (dbg : Bool) (sn : Sn) (mac : Eui48) (h : Bytes) (xid : UInt32) (addr : SockAddr) :
    Cost p (27 + inDebug dbg 1) (sendDhcpDiscover dbg (traceBus b) sn mac h xid addr) :=
  .mono (n := 1 + (23 + (3 + inDebug dbg 1)))
    (.bind (cost_socketWriter _) fun _ => .bind (cost_onWriter _ (wc_discover _ _ _)) fun _ => cost_udpWriterSendTo _ _ _) (by omega)
theorem cost_sendRequest (sn : Sn) (mac : Eui48) (ip : Ipv4) (h : Bytes) (o : Option Ipv4) (xid : UInt32) :
    Cost p 31 (sendDhcpRequest (traceBus b) sn mac ip h o xid) :=
  .mono (n := 1 + (28 + 2)) (.bind (cost_socketWriter _) fun _ => .bind (cost_onWriter _ (wc_request _ _ _ _ _)) fun _ => cost_writerSend _) (by omega)

/-- A bound for a client whose socket is `sn`. -/
def DM (p : Access → Bool) (sn : Sn) (n : Nat) (m : M ((σ × List Access) × Client) α) : Prop :=
  ∀ t, t.2.sn = sn → (m t).2.1.2.countP p ≤ t.1.2.countP p + n ∧ (m t).2.2.sn = sn

theorem DM.mono {m : M ((σ × List Access) × Client) α} (h : DM p sn n m) (hk : n ≤ k) : DM p sn k m := fun t ht => ⟨by have := (h t ht).1; omega, (h t ht).2⟩
theorem DM.pure (a : α) : DM p sn n (Pure.pure a : M ((σ × List Access) × Client) α) := fun _ ht => ⟨Nat.le_add_right _ _, ht⟩
theorem DM.ofExcept (r : Except Err α) : DM p sn n (M.ofExcept r : M ((σ × List Access) × Client) α) := fun _ ht => ⟨Nat.le_add_right _ _, ht⟩
theorem DM.bind {m : M ((σ × List Access) × Client) α} {f : α → M ((σ × List Access) × Client) β} (h : DM p sn n m) (hf : ∀ a, DM p sn k (f a)) :
    DM p sn (n + k) (m >>= f) := fun t ht => by
  rw [M.bind_run]
  have := h t ht
  rcases e : m t with ⟨e' | a, t'⟩ <;> rw [e] at this
  · exact ⟨Nat.le_trans this.1 (by omega), this.2⟩
  · obtain ⟨h1, h2⟩ := hf a t' this.2
    have h3 : t'.1.2.countP p ≤ _ := this.1
    exact ⟨by show (f a t').2.1.2.countP p ≤ _; omega, h2⟩
theorem DM.ite {c : Prop} [Decidable c] {m m' : M ((σ × List Access) × Client) α} (h : DM p sn n m) (h' : DM p sn n m') : DM p sn n (if c then m else m') := by
  split
  · exact h
  · exact h'
theorem DM.onBus {m : M (σ × List Access) α} (h : Cost p n m) : DM p sn n (Dhcp.onBus m) := fun t ht => ⟨h t.1, ht⟩
theorem DM.modC {f : Client → Client} (h : ∀ c, (f c).sn = c.sn) : DM p sn 0 (Dhcp.modC f : M ((σ × List Access) × Client) _) :=
  fun t ht => ⟨Nat.le_refl _, (h t.2).trans ht⟩
theorem DM.getC {f : Client → M ((σ × List Access) × Client) β} (h : ∀ c, c.sn = sn → DM p sn n (f c)) : DM p sn n (Dhcp.getC >>= f) := fun t ht => by
  rw [M.bind_run]
  exact h t.2 ht t ht

theorem dm_discover (h : ∀ e, p ⟨false, sn.block, SnReg.SR.addr, 1, e⟩ = false) (dbg : Bool) (fuel : Nat) (secs : UInt32) :
    DM p sn (32 + inDebug dbg 15) (discover dbg fuel (traceBus b) secs) := by
  refine .mono (n := 0 + (1 + ((4 + inDebug dbg 14) + ((27 + inDebug dbg 1) + 0)))) ?_ (by cases dbg <;> decide)
  refine .bind (.modC fun _ => rfl) fun _ => .getC fun c hc => .bind (.onBus (cost_setSipr _)) fun _ => ?_
  exact .bind (.onBus (cost_udpBind _ _ _ _ (hc ▸ h))) fun _ => .bind (.onBus (cost_sendDiscover _ _ _ _ _ _)) fun _ => .modC fun _ => rfl
theorem dm_request : DM p sn 31 (request (traceBus b)) :=
  .mono (n := 0 + 31) (.bind (.modC fun _ => rfl) fun _ => .getC fun _ _ => .onBus (cost_sendRequest _ _ _ _ _ _)) (by decide)
theorem dm_leaseTimers (h : ∀ e, p ⟨false, sn.block, SnReg.SR.addr, 1, e⟩ = false) (dbg : Bool) (fuel : Nat) (secs : UInt32) :
    DM p sn (32 + inDebug dbg 15) (leaseTimers dbg fuel (traceBus b) secs) :=
  .getC fun c _ => .ite (dm_discover h dbg fuel secs)
    (.ite (.mono (n := 31 + 0) (.bind dm_request fun _ => .modC fun _ => rfl) (by omega))
      (.ite (.mono (n := 31 + 0) (.bind dm_request fun _ => .modC fun _ => rfl) (by omega)) (.pure _)))
theorem dm_timers (h : ∀ e, p ⟨false, sn.block, SnReg.SR.addr, 1, e⟩ = false) (dbg : Bool) (fuel : Nat) (secs : UInt32) :
    DM p sn (32 + inDebug dbg 15) (timers dbg fuel (traceBus b) secs) := by
  refine .getC fun c _ => .mono (n := 0 + (32 + inDebug dbg 15)) (.bind (.ofExcept _) fun e => ?_) (by omega)
  split
  · exact .ite (dm_discover h dbg fuel secs) (.pure _)
  · split
    · exact dm_discover h dbg fuel secs
    · exact .pure _
    · exact .pure _
    · exact dm_leaseTimers h dbg fuel secs

theorem rsr_zero (hb : NothingReceived b sn) (t : σ × List Access) : (∃ e, ((traceBus b).snRxRsr sn t).1 = .error e) ∨ ((traceBus b).snRxRsr sn t).1 = .ok 0 := by
  have := hb t.1
  have h : ((traceBus b).read SnReg.RX_RSR0.addr sn.block 2 t).1 = (b.read 0x26 sn.block 2 t.1).1 := rfl
  unfold Bus.snRxRsr
  rw [M.bind_run]
  rcases e : (traceBus b).read SnReg.RX_RSR0.addr sn.block 2 t with ⟨e' | v, t'⟩
  · exact .inl ⟨e', rfl⟩
  · rw [e] at h
    obtain rfl := this v h.symm
    exact .inr rfl

/-- Without data there is no reader, after one access. -/
theorem noReader (hb : NothingReceived b sn) (dbg : Bool) (t : σ × List Access) :
    (∃ e, (udpReader dbg (traceBus b) sn t).1 = .error e) ∧ (udpReader dbg (traceBus b) sn t).2.2.countP p ≤ t.2.countP p + (1 + inDebug dbg 1) := by
  have h1 := cost_debugAssert dbg (cost_srIsUdp (b := b) (p := p) (sn := sn)) t
  unfold udpReader
  rw [M.bind_run]
  rcases e : debugAssert dbg (srIsUdp (traceBus b) sn) t with ⟨e' | _, t'⟩ <;> rw [e] at h1
  · exact ⟨⟨e', rfl⟩, Nat.le_trans h1 (by unfold inDebug; omega)⟩
  · dsimp only at h1 ⊢
    have h2 := cost_snRxRsr (b := b) (p := p) (sn := sn) t'
    have h3 := rsr_zero hb t'
    rw [M.bind_run]
    rcases e : (traceBus b).snRxRsr sn t' with ⟨e' | v, t2⟩ <;> rw [e] at h2 h3
    · exact ⟨⟨e', rfl⟩, by show t2.2.countP p ≤ _; unfold inDebug; dsimp only at h2; omega⟩
    · rcases h3 with ⟨_, h⟩ | h
      · exact nomatch h
      · obtain rfl : v = 0 := Except.ok.inj h
        exact ⟨⟨.wouldBlock, rfl⟩, by show t2.2.countP p ≤ _; unfold inDebug; dsimp only at h2; omega⟩

theorem recv_none (hb : NothingReceived b sn) (dbg : Bool) (xid : UInt32) (t : σ × List Access) :
    ((∃ e, (Dhcp.recv dbg (traceBus b) sn xid t).1 = .error e) ∨ (Dhcp.recv dbg (traceBus b) sn xid t).1 = .ok none) ∧
    (Dhcp.recv dbg (traceBus b) sn xid t).2.2.countP p ≤ t.2.countP p + (1 + inDebug dbg 1) := by
  obtain ⟨⟨e', h1⟩, h2⟩ := noReader (p := p) hb dbg t
  unfold Dhcp.recv
  rcases e : udpReader dbg (traceBus b) sn t with ⟨r, t'⟩
  rw [e] at h1 h2
  subst h1
  cases e' <;> first | exact ⟨.inr rfl, h2⟩ | exact ⟨.inl ⟨_, rfl⟩, h2⟩

theorem dm_packets (hb : NothingReceived b sn) (dbg : Bool) (fuel : Nat) (secs : UInt32) : ∀ n, DM p sn (1 + inDebug dbg 1) (packets dbg fuel (traceBus b) secs n)
  | 0 => fun _ ht => ⟨Nat.le_add_right _ _, ht⟩
  | n + 1 => .getC fun c hc t ht => by
    subst hc
    obtain ⟨h1, h2⟩ := recv_none (p := p) hb dbg c.xid t.1
    rw [M.bind_run]
    rcases e : Dhcp.onBus (Dhcp.recv dbg (traceBus b) c.sn c.xid) t with ⟨r, t'⟩
    have e1 : (Dhcp.recv dbg (traceBus b) c.sn c.xid t.1).1 = r := congrArg (·.1) e
    have e2 : (Dhcp.recv dbg (traceBus b) c.sn c.xid t.1).2 = t'.1 := congrArg (·.2.1) e
    have e3 : t.2 = t'.2 := congrArg (·.2.2) e
    rw [e1] at h1
    rw [e2] at h2
    rw [e3] at ht
    rcases h1 with ⟨e', rfl⟩ | rfl
    · exact ⟨h2, ht⟩
    · exact ⟨h2, ht⟩

theorem cost_dhcpClearIr (sn : Sn) : Cost p 2 (Dhcp.clearIr (traceBus b) sn) :=
  .mono (n := 1 + max 1 0) (.bind (cost_snIr _) fun _ => .ite (cost_setSnIr _ _) (.pure _)) (by decide)
theorem cost_linkDown (c : Client) : Cost p 1 (linkDown (traceBus b) c) := by
  unfold linkDown
  split
  · exact .mono (n := 1 + 0) (.bind (by unfold Bus.phycfgr; exact .mono (n := 1 + 0) (.bind (.read _ _ _) fun _ => .pure _) (by decide)) fun _ => .pure _) (by decide)
  · exact .mono (n := 0) (.pure _) (by decide)

/-- **C131** In every state, at every time, with every host name.  Sending a DHCPDISCOVER is part of it; reads of the status while the socket is opened do not
count. -/
theorem C131_dhcp (b : Bus σ) (dbg : Bool) (fuel n : Nat) (secs : UInt32) (c : Client) (s : σ) :
    (NothingReceived b c.sn →
      ((process dbg fuel n (traceBus b) secs ((s, []), c)).2.1.2.filter (notStatus c.sn)).length ≤ 36 + inDebug dbg 16) ∧
    ((accesses (setupSocket dbg fuel (traceBus b) c) s).filter (notStatus c.sn)).length ≤ 9 + inDebug dbg 14 := by
  refine ⟨fun hb => ?_, Cost.others ?_ s⟩
  · have h : DM (notStatus c.sn) c.sn (36 + inDebug dbg 16) (process dbg fuel n (traceBus b) secs) := by
      refine .getC fun c' _ => .mono (n := 2 + (1 + ((1 + inDebug dbg 1) + ((32 + inDebug dbg 15) + 0)))) ?_ (by cases dbg <;> decide)
      refine .bind (.onBus (cost_dhcpClearIr _)) fun _ => .bind (.onBus (cost_linkDown _)) fun _ => .ite (.pure _) (.bind (dm_packets hb _ _ _ _) fun r => ?_)
      split
      · exact .pure _
      · exact .bind (dm_timers (status_not _) _ _ _) fun _ => .getC fun _ _ => .ofExcept _
    have := (h ((s, []), c) rfl).1
    rw [← List.countP_eq_length_filter]
    exact Nat.le_trans this (by simp)
  · refine .mono (n := 1 + (1 + (1 + (1 + (1 + (4 + inDebug dbg 14)))))) ?_ (by omega)
    exact .bind cost_simr fun _ => .bind (cost_setSimr _) fun _ => .bind (cost_setSnImr _ _) fun _ => .bind (cost_setSnCr _) fun _ =>
      .bind (cost_setSipr _) fun _ => cost_udpBind _ _ _ _ (status_not _)
end

/-! ## The numbers are reached -/

/-- A chip with its link up that has received nothing, and where the socket opens at once.  The state says whether the command to open was given. -/
def idleBus : Bus Bool where
  read a blk n := fun s => (.ok (if a = 3 ∧ blk ≠ 0 then Vector.replicate n (if s then 0x22 else 0) else if a = 0x26 then Vector.replicate n 0 else Vector.replicate n 1), s)
  write a _ bs := fun s => (.ok (), if a = 1 ∧ bs = [1] then true else s)

theorem idle_nothing (sn : Sn) : NothingReceived idleBus sn := fun s v h => by
  rw [← Except.ok.inj h, if_neg fun h => absurd h.1 (by decide), if_pos rfl]; rfl

/-- The first call sends a DHCPDISCOVER with 36 accesses. -/
example : ((process false 3 3 (traceBus idleBus) 0 ((false, []), Client.new .sn1 1 ⟨2, 0, 0, 0, 0, 1⟩ [0x61])).2.1.2.filter (notStatus .sn1)).length = 36 := by
  decide +kernel

end Verif.Thm
