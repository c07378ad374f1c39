import Verif.Proof.ClosedProg
import Verif.Spec.DhcpHistory
/-!
# The address register during the calls of the DHCP client
-/
namespace Verif
open Hl Spec Dhcp

theorem envStep_mem0 (c : Chip) (e : EnvStep) (a : Nat) : (c.envStep e).mem 0 a = c.mem 0 a := by
  cases e with
  | arrive k bs =>
    simp only [Chip.envStep]
    split
    · show Mem.ringWrite _ (4 * k + 3) _ _ _ 0 a = _
      rw [Mem.ringWrite_out _ _ _ _ _ _ _ (.inl (by omega))]
      simp only [Chip.setReg]
      rw [Mem.setWord_ne _ _ _ _ _ _ (.inl (by omega)), Mem.setWord_ne _ _ _ _ _ _ (.inl (by omega))]
    · rfl
  | status k s => simp [Chip.envStep, Chip.setStatus, Mem.store]
  | free k n =>
    simp only [Chip.envStep, Chip.setReg]
    rw [Mem.setWord_ne _ _ _ _ _ _ (.inl (by omega))]
  | raise k bits => simp [Chip.envStep, Mem.store]

theorem tick_mem0 (w : World) (a : Nat) : w.tick.chip.mem 0 a = w.chip.mem 0 a := by
  unfold World.tick
  cases w.sched with
  | nil => rfl
  | cons es rest =>
    simp only
    generalize w.chip = c
    induction es generalizing c with
    | nil => rfl
    | cons e es ih => rw [List.foldl_cons, ih, envStep_mem0]

/-- Leaves the address register as it is. -/
def KeepsIp {α : Type} (m : M World α) : Prop := ∀ w, (m w).2.chip.ownIp = w.chip.ownIp

theorem KeepsIp.bind {α β : Type} {m : M World α} {f : α → M World β} (hm : KeepsIp m) (hf : ∀ a, KeepsIp (f a)) :
    KeepsIp (m >>= f) := by
  intro w
  rw [M.bind_run]
  have := hm w
  rcases e : m w with ⟨e | a, w'⟩
  · rw [e] at this; exact this
  · rw [e] at this; exact (hf a w').trans this

theorem KeepsIp.pure {α : Type} (a : α) : KeepsIp (Pure.pure a : M World α) := fun _ => rfl

theorem tick_ownIp (w : World) : w.tick.chip.ownIp = w.chip.ownIp := by
  unfold Chip.ownIp; simp only [tick_mem0]

/-- The accesses to the blocks of a socket. -/
theorem closedIp (sn : Sn) : Closed worldBus (OwnBlock sn) (fun m => KeepsIp m) := by
  refine closed_of_rel (fun (s t : World) => t.chip.ownIp = s.chip.ownIp) (fun _ => rfl) (fun _ _ _ h1 h2 => Eq.trans h2 h1) ?_ ?_
  · intro a blk n s
    rw [worldBus_read]; exact tick_ownIp s
  · intro a blk bs s hW
    rw [worldBus_write]
    refine Eq.trans ?_ (tick_ownIp s)
    unfold Chip.ownIp
    have hb : blk.toNat = 4 * sn.idx + 1 ∨ blk.toNat = 4 * sn.idx + 2 ∨ blk.toNat = 4 * sn.idx + 3 := by
      rcases hW with h | h | h <;> rw [h]
      · exact .inl (Sn.block_toNat sn)
      · exact .inr (.inl (Sn.txBlock_toNat sn))
      · exact .inr (.inr (Sn.rxBlock_toNat sn))
    have := (writeBytes_frame sn.idx blk.toNat hb bs s.tick.chip a.toNat).1
    simp only [this 0 _ (by omega) (by omega) (by omega)]

theorem keepsIp_read (a : UInt16) (blk : UInt8) (n : Nat) : KeepsIp (worldBus.read a blk n) := (closedIp .sn0).read a blk n

theorem keepsIp_onUdpReader {α : Type} (u : UdpReader) (prog : RProg α) : KeepsIp (onUdpReader worldBus u prog) := fun w =>
  (onUdpReader_rel (R := fun (s t : World) => t.chip.ownIp = s.chip.ownIp) (fun _ => rfl) (fun _ _ _ h1 h2 => Eq.trans h2 h1)
    (fun sn p n s => closed_snRxBuf (closedIp sn) p n s) u prog w).1

theorem keepsIp_onWriter {α : Type} (r : Ptrs) (prog : WProg α) : KeepsIp (onWriter worldBus r prog) := fun w =>
  (onWriter_rel (R := fun (s t : World) => t.chip.ownIp = s.chip.ownIp) (sn := r.sn) (fun _ => rfl) (fun _ _ _ h1 h2 => Eq.trans h2 h1)
    (fun p x s => closed_setSnTxBuf (closedIp r.sn) p x s) r rfl prog w).1

theorem keepsIp_udpReaderDone (u : UdpReader) : KeepsIp (udpReaderDone worldBus u) :=
  closed_udpReaderDone (closedIp u.inner.sn) u rfl

theorem keepsIp_sendDhcpDiscover (dbg : Bool) (sn : Sn) (mac : Eui48) (h : Bytes) (xid : UInt32) (a : SockAddr) :
    KeepsIp (sendDhcpDiscover dbg worldBus sn mac h xid a) :=
  .bind (closed_socketWriter (closedIp sn)) fun r => .bind (keepsIp_onWriter r _) fun x =>
    closed_udpWriterSendTo (closedIp x.2.sn) x.2 rfl dbg a

theorem keepsIp_sendDhcpRequest (sn : Sn) (mac : Eui48) (ip : Ipv4) (h : Bytes) (sid : Option Ipv4) (xid : UInt32) :
    KeepsIp (sendDhcpRequest worldBus sn mac ip h sid xid) :=
  .bind (closed_socketWriter (closedIp sn)) fun r => .bind (keepsIp_onWriter r _) fun x =>
    closed_writerSend (closedIp x.2.sn) x.2 rfl

theorem keepsIp_clearIr (sn : Sn) : KeepsIp (clearIr worldBus sn) := by
  have h := closedIp sn
  unfold clearIr
  refine .bind (by unfold Bus.snIr; closed_tac h) fun ir => ?_
  show KeepsIp (if _ then _ else _ : M World _)
  split
  · unfold Bus.setSnIr; closed_tac h
  · exact .pure _

theorem keepsIp_linkDown (c : Client) : KeepsIp (linkDown worldBus c) := by
  have h := closedIp c.sn
  unfold linkDown
  split
  · refine .bind (by unfold Bus.phycfgr; closed_tac h) fun _ => .pure _
  · exact .pure _

theorem keepsIp_recv (dbg : Bool) (sn : Sn) (xid : UInt32) : KeepsIp (recv dbg worldBus sn xid) := by
  intro w
  have h1 := closed_udpReader (closedIp sn) dbg w
  unfold recv
  rcases e : udpReader dbg worldBus sn w with ⟨e' | u, w'⟩
  · rw [e] at h1
    cases e' <;> exact h1
  · rw [e] at h1
    refine Eq.trans ?_ h1
    show ((if _ then _ else _ : M World _) w').2.chip.ownIp = _
    split
    · rfl
    · exact KeepsIp.bind (keepsIp_onUdpReader u _) (fun _ => .pure _) w'

/-- Writing the address registers. -/
theorem writeBytes_common (c : Chip) (a : Nat) (x0 x1 x2 x3 : UInt8) (h : a + 4 < 65536) :
    (c.writeBytes 0 a [x0, x1, x2, x3]).mem = fun b i => if b = 0 ∧ a ≤ i ∧ i < a + 4 then
      (if i = a then x0 else if i = a + 1 then x1 else if i = a + 2 then x2 else x3) else c.mem b i := by
  funext b i
  simp only [Chip.writeBytes, Chip.writeByte, Chip.phys]
  simp only [show a % 65536 = a by omega, show (a + 1) % 65536 = a + 1 by omega, show (a + 1 + 1) % 65536 = a + 2 by omega,
    show (a + 1 + 1 + 1) % 65536 = a + 3 by omega]
  by_cases hb : b = 0
  · subst hb
    simp [Mem.store]
    grind
  · simp [hb, Mem.store]

theorem run_setSipr (v : Ipv4) (w : World) : ∃ w', worldBus.setSipr v w = (.ok (), w') ∧ w'.chip.ownIp = v.octets := by
  refine ⟨_, rfl, ?_⟩
  show (w.tick.chip.writeBytes 0 15 [v.a, v.b, v.c, v.d]).ownIp = _
  unfold Chip.ownIp
  rw [writeBytes_common _ _ _ _ _ _ (by omega)]
  rfl

theorem keepsIp_setGar (v : Ipv4) : KeepsIp (worldBus.setGar v) := by
  intro w
  show (w.tick.chip.writeBytes 0 1 [v.a, v.b, v.c, v.d]).ownIp = _
  rw [← tick_ownIp w]
  unfold Chip.ownIp
  rw [writeBytes_common _ _ _ _ _ _ (by omega)]
  rfl

theorem keepsIp_setSubr (v : Ipv4) : KeepsIp (worldBus.setSubr v) := by
  intro w
  show (w.tick.chip.writeBytes 0 5 [v.a, v.b, v.c, v.d]).ownIp = _
  rw [← tick_ownIp w]
  unfold Chip.ownIp
  rw [writeBytes_common _ _ _ _ _ _ (by omega)]
  rfl

/-! ## The pair of device and client -/

/-- The invariant: the address register holds the leased address, or 0.0.0.0 if there is none. -/
def IpInv (s : World × Client) : Prop :=
  s.1.chip.ownIp = match s.2.leasedIp with
    | some ip => ip.octets
    | none => [0, 0, 0, 0]

/-- After `m` from a state satisfying `I`, whether it succeeds or not, `J` holds. -/
def Leads {α : Type} (I J : World × Client → Prop) (m : M (World × Client) α) : Prop := ∀ s, I s → J (m s).2

theorem Leads.bind {α β : Type} {I J K : World × Client → Prop} {m : M (World × Client) α} {f : α → M (World × Client) β}
    (hm : Leads I J m) (hf : ∀ a, Leads J K (f a)) (h : ∀ s, J s → K s) : Leads I K (m >>= f) := by
  intro s hs
  rw [M.bind_run]
  have := hm s hs
  rcases e : m s with ⟨e | a, s'⟩
  · rw [e] at this; exact h _ this
  · rw [e] at this; exact hf a s' this

theorem Leads.seq {α β : Type} {I : World × Client → Prop} {m : M (World × Client) α} {f : α → M (World × Client) β}
    (hm : Leads I I m) (hf : ∀ a, Leads I I (f a)) : Leads I I (m >>= f) := .bind hm hf fun _ h => h

theorem Leads.pure {α : Type} {I : World × Client → Prop} (a : α) : Leads I I (Pure.pure a : M (World × Client) α) := fun _ h => h
theorem Leads.ofExcept {α : Type} {I : World × Client → Prop} (x : Except Err α) : Leads I I (M.ofExcept x) := by
  intro s h; cases x <;> exact h
theorem Leads.weaken {α : Type} {I I' J J' : World × Client → Prop} {m : M (World × Client) α} (h : Leads I J m)
    (h1 : ∀ s, I' s → I s) (h2 : ∀ s, J s → J' s) : Leads I' J' m := fun s hs => h2 _ (h s (h1 s hs))

/-- The invariant in a given state of the client. -/
def IpInvAt (st : State) (s : World × Client) : Prop := IpInv s ∧ s.2.state = st

theorem leads_onBus {α : Type} {st : State} {m : M World α} (h : KeepsIp m) : Leads (IpInvAt st) (IpInvAt st) (onBus m) := by
  rintro ⟨w, c⟩ ⟨h1, h2⟩
  refine ⟨?_, h2⟩
  unfold IpInv at h1 ⊢
  simp only [onBus]
  rw [h w]; exact h1

theorem leads_onBus' {α : Type} {m : M World α} (h : KeepsIp m) : Leads IpInv IpInv (onBus m) := by
  rintro ⟨w, c⟩ h1
  unfold IpInv at h1 ⊢
  simp only [onBus]
  rw [h w]; exact h1

theorem leads_getC {I : World × Client → Prop} : Leads I I (getC : M (World × Client) Client) := fun _ h => h

theorem leads_modC {I J : World × Client → Prop} {f : Client → Client} (h : ∀ w c, I (w, c) → J (w, f c)) :
    Leads I J (modC f : M (World × Client) Unit) := fun s hs => h s.1 s.2 hs

/-- Looking at the client first. -/
theorem Leads.get {α : Type} {I J : World × Client → Prop} {f : Client → M (World × Client) α}
    (h : ∀ c, Leads (fun s => I s ∧ s.2 = c) J (f c)) : Leads I J (getC >>= f) := by
  intro s hs
  rw [M.bind_ok (show getC s = (.ok s.2, s) from rfl)]
  exact h s.2 s ⟨hs, rfl⟩

theorem Leads.bindOk {α β : Type} {I J K : World × Client → Prop} {m : M (World × Client) α} {f : α → M (World × Client) β}
    (hm : ∀ s, I s → ∃ a s', m s = (.ok a, s') ∧ J s') (hf : ∀ a, Leads J K (f a)) : Leads I K (m >>= f) := by
  intro s hs
  obtain ⟨a, s', h, hj⟩ := hm s hs
  rw [M.bind_ok h]
  exact hf a s' hj

/-- There is no address: neither in the client nor in the register. -/
def NoIp (s : World × Client) : Prop := s.1.chip.ownIp = [0, 0, 0, 0] ∧ s.2.ip = .unspecified

theorem NoIp.inv {s : World × Client} (h : NoIp s) : IpInv s := by
  obtain ⟨w, c⟩ := s
  obtain ⟨h1, h2⟩ := h
  unfold IpInv Client.leasedIp
  simp only at h1 h2 ⊢
  rw [h1, h2]
  cases c.hasLease <;> rfl

theorem noIp_onBus {α : Type} {m : M World α} (h : KeepsIp m) : Leads NoIp NoIp (onBus m) := by
  rintro ⟨w, c⟩ ⟨h1, h2⟩
  exact ⟨(h w).trans h1, h2⟩

theorem noIp_set (secs : UInt32) : Leads NoIp NoIp (modC (Client.setStateWithTimeout .selecting secs) : M (World × Client) Unit) :=
  leads_modC fun _ _ h => h

/-- `discover` leaves no address. -/
theorem leads_discover_noIp (dbg : Bool) (fuel : Nat) (secs : UInt32) :
    Leads (fun _ => True) NoIp (discover dbg fuel worldBus secs) := by
  unfold discover
  refine .bindOk (J := fun s => s.2.ip = .unspecified) (fun s _ => ⟨(), _, rfl, rfl⟩) fun _ => ?_
  have rest : ∀ c : Client, Leads NoIp NoIp (onBus (udpBind dbg fuel worldBus c.sn c.srcPort) >>= fun _ =>
      onBus (sendDhcpDiscover dbg worldBus c.sn c.mac c.hostname c.xid c.broadcastAddr) >>= fun _ =>
      modC (Client.setStateWithTimeout .selecting secs)) := fun c =>
    .seq (noIp_onBus (closed_udpBind (closedIp c.sn) dbg fuel _)) fun _ =>
      .seq (noIp_onBus (keepsIp_sendDhcpDiscover _ _ _ _ _ _)) fun _ => noIp_set secs
  refine .get fun c => .bindOk (J := NoIp) ?_ fun _ => rest c
  rintro ⟨w, c'⟩ ⟨h, rfl⟩
  obtain ⟨w1, h1, h2⟩ := run_setSipr c'.ip w
  refine ⟨(), (w1, c'), by unfold onBus; rw [h1], ?_, h⟩
  rw [h2, h]; rfl

/-- `discover` establishes the invariant. -/
theorem leads_discover (dbg : Bool) (fuel : Nat) (secs : UInt32) :
    Leads (fun _ => True) IpInv (discover dbg fuel worldBus secs) :=
  (leads_discover_noIp dbg fuel secs).weaken (fun _ h => h) fun _ h => h.inv

theorem IpInvAt.congr {st : State} {w : World} {c c' : Client} (h : IpInvAt st (w, c)) (hs : c'.state = c.state) (hi : c'.ip = c.ip) :
    IpInvAt st (w, c') := by
  obtain ⟨h1, h2⟩ := h
  refine ⟨?_, by rw [← h2]; exact hs⟩
  unfold IpInv Client.leasedIp Client.hasLease at h1 ⊢
  simp only at h1 ⊢
  rw [hs, hi]; exact h1

theorem leads_request {st : State} : Leads (IpInvAt st) (IpInvAt st) (request worldBus) := by
  unfold request
  refine .bind (leads_modC fun w c h => h.congr rfl rfl) (fun _ => .bind leads_getC (fun c => leads_onBus (keepsIp_sendDhcpRequest _ _ _ _ _ _))
    fun _ h => h) fun _ h => h

theorem IpInvAt.noLease {st : State} {w : World} {c : Client} (h : IpInvAt st (w, c)) (hs : st = .selecting ∨ st = .requesting ∨ st = .init)
    {c' : Client} (hc : c'.state = .selecting ∨ c'.state = .requesting ∨ c'.state = .init) : IpInv (w, c') := by
  obtain ⟨h1, h2⟩ := h
  unfold IpInv at h1 ⊢
  have a : c.leasedIp = none := by
    unfold Client.leasedIp Client.hasLease
    simp only at h2
    rw [h2]
    rcases hs with h | h | h <;> rw [h] <;> rfl
  have b : c'.leasedIp = none := by
    unfold Client.leasedIp Client.hasLease
    rcases hc with h | h | h <;> rw [h] <;> rfl
  simp only at h1 ⊢
  rw [a] at h1
  rw [b]; exact h1

theorem IpInvAt.lease {st : State} {w : World} {c : Client} (h : IpInvAt st (w, c)) (hs : st = .renewing ∨ st = .rebinding ∨ st = .bound)
    {c' : Client} (hc : c'.state = .renewing ∨ c'.state = .rebinding ∨ c'.state = .bound) (hi : c'.ip = c.ip) : IpInv (w, c') := by
  obtain ⟨h1, h2⟩ := h
  unfold IpInv at h1 ⊢
  have a : c.leasedIp = some c.ip := by
    unfold Client.leasedIp Client.hasLease
    simp only at h2
    rw [h2]
    rcases hs with h | h | h <;> rw [h] <;> rfl
  have b : c'.leasedIp = some c.ip := by
    unfold Client.leasedIp Client.hasLease
    rw [hi]
    rcases hc with h | h | h <;> rw [h] <;> rfl
  simp only at h1 ⊢
  rw [a] at h1
  rw [b]; exact h1

theorem leads_onOffer (secs : UInt32) (u : UdpReader) : Leads (IpInvAt .selecting) IpInv (onOffer worldBus secs u) := by
  have setIp : ∀ (f : Client → Client), (∀ c, (f c).state = c.state) →
      Leads (IpInvAt .selecting) (IpInvAt .selecting) (modC f : M (World × Client) Unit) := by
    intro f hf
    refine leads_modC fun w c h => ⟨h.noLease (.inl rfl) (.inl ?_), ?_⟩
    · rw [hf]; exact h.2
    · show (f c).state = _
      rw [hf]; exact h.2
  have drop : ∀ s, IpInvAt .selecting s → IpInv s := fun _ h => h.1
  unfold onOffer
  refine .bind (leads_onBus (keepsIp_onUdpReader _ _)) (fun r1 => ?_) drop
  refine .bind (setIp _ fun _ => rfl) (fun _ => ?_) drop
  refine .bind (leads_onBus (keepsIp_onUdpReader _ _)) (fun r1 => ?_) drop
  refine .bind (setIp _ fun _ => rfl) (fun _ => ?_) drop
  refine .bind (leads_onBus (keepsIp_udpReaderDone _)) (fun _ => ?_) drop
  refine .bind leads_request (fun _ => ?_) drop
  exact leads_modC fun w c h => h.noLease (.inl rfl) (.inr (.inl rfl))

/-- The states in which replies are handled. -/
def Waiting (st : State) : Prop := st = .requesting ∨ st = .renewing ∨ st = .rebinding

theorem leads_ackBound {st : State} (hst : Waiting st) (o : AckOpts) : Leads (IpInvAt st) IpInv (ackBound worldBus o) := by
  unfold ackBound
  refine .get fun c => ?_
  rintro ⟨w, c'⟩ ⟨h, rfl⟩
  by_cases hr : c'.state = .requesting
  · rw [if_pos hr]
    obtain ⟨w1, h1, h2⟩ := run_setSipr c'.ip w
    rw [M.bind_ok (show onBus (worldBus.setSipr c'.ip) (w, c') = (.ok (), (w1, c')) by unfold onBus; rw [h1])]
    show IpInv (w1, _)
    unfold IpInv
    exact h2
  · rw [if_neg hr]
    have hs : st = .renewing ∨ st = .rebinding ∨ st = .bound := by
      have := h.2
      rcases hst with e | e | e
      · exact absurd (this.trans e) hr
      · exact .inl e
      · exact .inr (.inl e)
    exact h.lease hs (.inr (.inr rfl)) rfl

theorem leads_ackGateway {st : State} (hst : Waiting st) (dbg : Bool) (secs : UInt32) (o : AckOpts) :
    Leads (IpInvAt st) IpInv (ackGateway dbg worldBus secs o) := by
  have drop : ∀ s, IpInvAt st s → IpInv s := fun _ h => h.1
  unfold ackGateway
  refine .bind leads_getC (fun c => ?_) drop
  cases o.gateway with
  | some g =>
    exact .bind (leads_onBus (keepsIp_setGar g)) (fun _ => .bind (leads_ackBound hst o) (fun _ => .pure _) fun _ h => h) drop
  | none =>
    show Leads _ _ (if _ then _ else _ : M (World × Client) _)
    split
    · exact .bind (leads_ackBound hst o) (fun _ => .pure _) fun _ h => h
    · exact (Leads.ofExcept _).weaken (fun _ h => h) drop

theorem leads_ackMask {st : State} (hst : Waiting st) (dbg : Bool) (secs : UInt32) (o : AckOpts) :
    Leads (IpInvAt st) IpInv (ackMask dbg worldBus secs o) := by
  have drop : ∀ s, IpInvAt st s → IpInv s := fun _ h => h.1
  unfold ackMask
  refine .bind leads_getC (fun c => ?_) drop
  cases o.mask with
  | some g =>
    exact .bind (leads_onBus (keepsIp_setSubr g)) (fun _ => leads_ackGateway hst dbg secs o) drop
  | none =>
    show Leads _ _ (if _ then _ else _ : M (World × Client) _)
    split
    · exact leads_ackGateway hst dbg secs o
    · exact (Leads.ofExcept _).weaken (fun _ h => h) drop

theorem leads_onAck {st : State} (hst : Waiting st) (dbg : Bool) (secs : UInt32) (u : UdpReader) (cache : Cache) :
    Leads (IpInvAt st) IpInv (onAck dbg worldBus secs u cache) := by
  have drop : ∀ s, IpInvAt st s → IpInv s := fun _ h => h.1
  unfold onAck
  refine .bind (leads_onBus (keepsIp_onUdpReader _ _)) (fun r => ?_) drop
  rcases r.1.2 with _ | ⟨lease, t1, t2⟩
  · exact .bind leads_getC (fun c => (Leads.ofExcept _).weaken (fun _ h => h) drop) drop
  · exact .bind (leads_modC fun w c h => h) (fun _ => .bind (leads_onBus (keepsIp_udpReaderDone _))
      (fun _ => leads_ackMask hst dbg secs _) drop) drop

theorem leads_onReply {st : State} (hst : Waiting st) (dbg : Bool) (fuel : Nat) (secs : UInt32) (u : UdpReader) :
    Leads (IpInvAt st) IpInv (onReply dbg fuel worldBus secs u) := by
  have drop : ∀ s, IpInvAt st s → IpInv s := fun _ h => h.1
  have other : ∀ r : (Option MsgType × Cache) × UdpReader,
      Leads (IpInvAt st) IpInv (onBus (udpReaderDone worldBus r.2) >>= fun _ => (pure none : M (World × Client) (Option UInt32))) :=
    fun r => .bind (leads_onBus (keepsIp_udpReaderDone _)) (fun _ => (Leads.pure _).weaken (fun _ h => h) drop) drop
  have nak : ∀ r : (Option MsgType × Cache) × UdpReader,
      Leads (IpInvAt st) IpInv (onBus (udpReaderDone worldBus r.2) >>= fun _ => discover dbg fuel worldBus secs >>= fun _ =>
        (pure none : M (World × Client) (Option UInt32))) := fun r =>
    .bind (J := IpInvAt st) (leads_onBus (keepsIp_udpReaderDone _)) (fun _ => .bind (J := IpInv)
      ((leads_discover dbg fuel secs).weaken (fun _ _ => trivial) fun _ h => h) (fun _ => .pure _) fun _ h => h) drop
  unfold onReply
  refine .bind (leads_onBus (keepsIp_onUdpReader _ _)) (fun r => ?_) drop
  rcases hr : r.1.1 with _ | t
  · exact other r
  · cases t with
    | ack => exact leads_onAck hst dbg secs _ _
    | nak => exact nak r
    | _ => exact other r

theorem leads_handle (dbg : Bool) (fuel : Nat) (secs : UInt32) (u : UdpReader) :
    Leads IpInv IpInv (handle dbg fuel worldBus secs u) := by
  unfold handle
  refine .get fun c => ?_
  have waiting : Waiting c.state → Leads (fun s => IpInv s ∧ s.2 = c) IpInv (onReply dbg fuel worldBus secs u) := fun h =>
    (leads_onReply h dbg fuel secs u).weaken (fun s hs => ⟨hs.1, by rw [hs.2]⟩) fun _ h => h
  have idle : Leads (fun s => IpInv s ∧ s.2 = c) IpInv (onBus (udpReaderDone worldBus u) >>= fun _ => (pure none : M (World × Client) (Option UInt32))) :=
    (Leads.seq (leads_onBus' (keepsIp_udpReaderDone u)) (fun _ => .pure _)).weaken (fun _ h => h.1) fun _ h => h
  rcases hs : c.state
  · exact idle
  · exact .bind ((leads_onOffer secs u).weaken (fun s h => ⟨h.1, by rw [h.2]; exact hs⟩) fun _ h => h) (fun _ => .pure _) fun _ h => h
  · exact waiting (by rw [hs]; exact .inl rfl)
  · exact idle
  · exact waiting (by rw [hs]; exact .inr (.inl rfl))
  · exact waiting (by rw [hs]; exact .inr (.inr rfl))

theorem leads_packets (dbg : Bool) (fuel : Nat) (secs : UInt32) (n : Nat) : Leads IpInv IpInv (packets dbg fuel worldBus secs n) := by
  induction n with
  | zero => exact fun _ h => h
  | succ n ih =>
    unfold packets
    refine .seq leads_getC fun c => .seq (leads_onBus' (keepsIp_recv _ _ _)) fun r => ?_
    cases r with
    | none => exact .pure _
    | some u =>
      refine .seq (leads_handle dbg fuel secs u) fun x => ?_
      cases x with
      | none => exact ih
      | some v => exact .pure _

theorem leads_leaseTimers (dbg : Bool) (fuel : Nat) (secs : UInt32) :
    Leads (fun s => IpInv s ∧ s.2.hasLease = true) IpInv (leaseTimers dbg fuel worldBus secs) := by
  unfold leaseTimers
  refine .get fun c => ?_
  have req : ∀ st' : State, (st' = .renewing ∨ st' = .rebinding) → (c.state = .bound ∨ c.state = .renewing) →
      Leads (fun s => (IpInv s ∧ s.2.hasLease = true) ∧ s.2 = c) IpInv (request worldBus >>= fun _ => modC (Client.setState st')) := by
    intro st' h' hs
    refine Leads.weaken (I := IpInvAt c.state) (J := IpInv) ?_ (fun s h => ⟨h.1.1, by rw [h.2]⟩) fun _ h => h
    refine .bind leads_request (fun _ => leads_modC fun w c' h => h.lease ?_ ?_ rfl) fun _ h => h.1
    · rcases hs with h | h <;> rw [h] <;> simp
    · rcases h' with h | h
      · exact .inl h
      · exact .inr (.inl h)
  show Leads _ _ (if _ then _ else _ : M (World × Client) _)
  split
  · exact (leads_discover dbg fuel secs).weaken (fun _ _ => trivial) fun _ h => h
  · split
    · rename_i h
      exact req _ (.inr rfl) h.2
    · split
      · rename_i h
        exact req _ (.inl rfl) (.inl h.2)
      · exact (Leads.pure _).weaken (fun _ h => h) fun _ h => h.1.1

theorem leads_timers (dbg : Bool) (fuel : Nat) (secs : UInt32) : Leads IpInv IpInv (timers dbg fuel worldBus secs) := by
  have disc : Leads IpInv IpInv (discover dbg fuel worldBus secs) := (leads_discover dbg fuel secs).weaken (fun _ _ => trivial) fun _ h => h
  unfold timers
  refine .get fun c => ?_
  refine Leads.bind (J := fun s => IpInv s ∧ s.2 = c) (Leads.ofExcept _) (fun e => ?_) fun _ h => h.1
  have disc' := disc.weaken (I' := fun s => IpInv s ∧ s.2 = c) (fun _ h => h.1) fun _ h => h
  have idle : Leads (fun s => IpInv s ∧ s.2 = c) IpInv (pure () : M (World × Client) Unit) := fun _ h => h.1
  cases e with
  | some elapsed =>
    show Leads _ _ (if _ then _ else _ : M (World × Client) _)
    split
    · exact disc'
    · exact idle
  | none =>
    have lt : c.hasLease = true → Leads (fun s => IpInv s ∧ s.2 = c) IpInv (leaseTimers dbg fuel worldBus secs) := fun h =>
      (leads_leaseTimers dbg fuel secs).weaken (fun s hs => ⟨hs.1, by rw [hs.2]; exact h⟩) fun _ h => h
    rcases hs : c.state
    · exact disc'
    · exact idle
    · exact idle
    all_goals exact lt (by unfold Client.hasLease; rw [hs])

theorem leads_process (dbg : Bool) (fuel n : Nat) (secs : UInt32) : Leads IpInv IpInv (process dbg fuel n worldBus secs) := by
  unfold process
  refine .seq leads_getC fun c => .seq (leads_onBus' (keepsIp_clearIr _)) fun _ => .seq (leads_onBus' (keepsIp_linkDown _)) fun down => ?_
  show Leads _ _ (if _ then _ else _ : M (World × Client) _)
  split
  · exact .pure _
  · refine .seq (leads_packets dbg fuel secs n) fun r => ?_
    cases r with
    | some v => exact .pure _
    | none => exact .seq (leads_timers dbg fuel secs) fun _ => .seq leads_getC fun c => .ofExcept _

end Verif
