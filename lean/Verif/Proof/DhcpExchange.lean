import Verif.Thm.DhcpOffer
import Verif.Thm.HlOpen
import Verif.Spec.DhcpExchange
/-!
# The calls of a DHCP exchange
-/
namespace Verif
open Hl Spec Dhcp
open Thm (linkUp run_yiaddr gives_list Reached contents_length quad_octets)

/-! ## A queue that stays empty -/

/-- Nothing is unread behind `p` and nothing will arrive. -/
abbrev Empty (k p : Nat) (w : World) : Prop := Pending (fun _ => False) k p w

theorem empty_of {k p : Nat} {w : World} (h : Still k w) (hp : (w.chip.received k).length = p) : Empty k p w :=
  ⟨by omega, ⟨[], nofun, by rw [List.drop_eq_nil_of_le (by omega)]; rfl, nofun⟩, fun es he bs hb => absurd hb (h es he bs)⟩

/-- With an empty queue the packets are over. -/
theorem packets_empty (fuel n : Nat) (secs : UInt32) (c : Client) (base p : Nat) (w : World) (hb : RxAt w.chip c.sn.idx base p)
    (hp : Empty c.sn.idx p w) : ∃ w1, packets false fuel worldBus secs (n + 1) (w, c) = (.ok none, (w1, c)) ∧ Later w w1 := by
  unfold packets
  rw [M.bind_ok (show getC (w, c) = (.ok c, (w, c)) from rfl), bind_onBus]
  unfold recv
  rcases udpReader_pending false c.sn base p w hb hp with ⟨u, w1, g, -, -, h, -⟩ | ⟨w1, h1, h2⟩ | ⟨h, -⟩
  · exact absurd h id
  · rw [h1]; exact ⟨w1, rfl, h2⟩
  · cases h

/-! ## Binding -/

theorem config_txSize {c c' : Chip} {k : Nat} (h : c'.mem (4 * k + 1) 0x1F = c.mem (4 * k + 1) 0x1F) : c'.txSize k = c.txSize k := by
  unfold Chip.txSize; rw [h]
theorem config_rxSize {c c' : Chip} {k : Nat} (h : c'.mem (4 * k + 1) 0x1E = c.mem (4 * k + 1) 0x1E) : c'.rxSize k = c.rxSize k := by
  unfold Chip.rxSize; rw [h]

theorem cmdOpen_fsr (c : Chip) (k : Nat) (h4 : c.txSize k < 65536) : (c.cmdOpen k).txFsr k = c.txSize k := by
  have : (c.cmdOpen k).txFsr k = c.txSize k % 65536 := by
    simp only [Chip.cmdOpen, Chip.setStatus, Chip.resetReceived, Chip.setReg, Chip.txFsr]
    unfold Mem.word
    simp [Mem.setWord, Mem.store]
    omega
  rw [this]; omega

theorem TxState.later_free {w w' : World} {k : Nat} (h : TxState w.chip k) (hl : Later w w') : w.chip.txFsr k ≤ w'.chip.txFsr k :=
  (hl.calm k).free h

/-- After `udp_bind` the whole transmit buffer is free. -/
theorem udpBind_room (dbg : Bool) (fuel : Nat) (sn : Sn) (port : UInt16) (w w' : World) (hs : Sizes w.chip sn.idx)
    (h : udpBind dbg fuel worldBus sn port w = (.ok (), w')) :
    w.chip.txSize sn.idx ≤ w'.chip.txFsr sn.idx ∧ w'.chip.txSize sn.idx = w.chip.txSize sn.idx ∧ RxState w'.chip sn.idx 0 ∧ TxState w'.chip sn.idx := by
  have hst := Thm.C12_open_establishes dbg fuel sn (.bind port) w w' hs.1 hs.2 hs.3 hs.4 h
  unfold udpBind at h
  obtain ⟨_, w1, h1, h⟩ := M.bind_ok_inv h
  obtain ⟨_, w2, h2, h⟩ := M.bind_ok_inv h
  obtain ⟨_, w3, h3, h⟩ := M.bind_ok_inv h
  rw [M.bind_ok (run_setSnPort sn port _), M.bind_ok (run_setSnMr sn _ _), M.bind_ok (run_setSnCr sn _ _)] at h
  have k1 : ∀ a, ConfigReg a → w1.chip.mem (4 * sn.idx + 1) a = w.chip.mem (4 * sn.idx + 1) a := by
    intro a ha
    have := (Thm.readOnly_debugAssert dbg (Thm.readOnly_portIsUnique sn port)).keepsConfig sn.idx w a ha
    rw [h1] at this; exact this
  have k2 : ∀ a, ConfigReg a → w2.chip.mem (4 * sn.idx + 1) a = w1.chip.mem (4 * sn.idx + 1) a := by
    intro a ha
    have := keepsConfig_cmd sn .close w1 a ha
    rw [h2] at this; exact this
  have k3 : ∀ a, ConfigReg a → w3.chip.mem (4 * sn.idx + 1) a = w2.chip.mem (4 * sn.idx + 1) a := by
    intro a ha
    have := (Thm.readOnly_waitStatus sn .closed fuel).keepsConfig sn.idx w2 a ha
    rw [h3] at this; exact this
  have kk : ∀ a, ConfigReg a → w3.chip.mem (4 * sn.idx + 1) a = w.chip.mem (4 * sn.idx + 1) a :=
    fun a ha => (k3 a ha).trans ((k2 a ha).trans (k1 a ha))
  generalize hu : ({ w3.tick with chip := w3.tick.chip.setReg sn.idx 4 port.toNat } : World) = u at h
  have ku : ∀ a, 6 ≤ a → ConfigReg a → u.chip.mem (4 * sn.idx + 1) a = w.chip.mem (4 * sn.idx + 1) a := by
    intro a h6 ha
    rw [← hu]
    exact (Mem.setWord_ne _ _ _ _ _ _ (by omega)).trans ((tick_config w3 _ _ ha).trans (kk a ha))
  generalize hv : ({ u.tick with chip := { u.tick.chip with mem := u.tick.chip.mem.store (4 * sn.idx + 1) 0 (SocketMode.default.setProtocol .udp).raw } } : World) = v at h
  have kv : ∀ a, 6 ≤ a → ConfigReg a → v.chip.mem (4 * sn.idx + 1) a = w.chip.mem (4 * sn.idx + 1) a := by
    intro a h6 ha
    rw [← hv]
    have : (u.tick.chip.mem.store (4 * sn.idx + 1) 0 (SocketMode.default.setProtocol .udp).raw) (4 * sn.idx + 1) a = u.tick.chip.mem (4 * sn.idx + 1) a := by
      unfold Mem.store; rw [if_neg (by omega)]
    exact this.trans ((tick_config u _ _ ha).trans (ku a h6 ha))
  have hc : v.tick.chip.command sn.idx SocketCommand.«open».code = v.tick.chip.cmdOpen sn.idx := rfl
  rw [hc] at h
  have sz : v.tick.chip.txSize sn.idx = w.chip.txSize sn.idx := config_txSize ((tick_config v _ _ (.inr (.inl (by omega)))).trans (kv _ (by omega) (.inr (.inl (by omega)))))
  have sr : v.tick.chip.rxSize sn.idx = w.chip.rxSize sn.idx := config_rxSize ((tick_config v _ _ (.inr (.inl (by omega)))).trans (kv _ (by omega) (.inr (.inl (by omega)))))
  have fr := Thm.cmdOpen_fresh v.tick.chip sn.idx (by rw [sr]; exact hs.1) (by rw [sr]; exact hs.2) (by rw [sz]; exact hs.3) (by rw [sz]; exact hs.4)
  have fs := cmdOpen_fsr v.tick.chip sn.idx (by rw [sz]; exact hs.4)
  have hl : Later ({ v.tick with chip := v.tick.chip.cmdOpen sn.idx } : World) w' := by
    obtain ⟨j, hj⟩ := Thm.readOnly_waitStatus sn .udp fuel ({ v.tick with chip := v.tick.chip.cmdOpen sn.idx } : World)
    rw [h] at hj
    exact ⟨j, hj⟩
  have hsz : (v.tick.chip.cmdOpen sn.idx).txSize sn.idx = v.tick.chip.txSize sn.idx :=
    config_txSize (command_config v.tick.chip sn.idx 0x1F SocketCommand.«open».code (.inr (.inl (by omega))))
  refine ⟨?_, ?_, hst⟩
  · have := TxState.later_free (w := { v.tick with chip := v.tick.chip.cmdOpen sn.idx }) fr.2 hl
    change (v.tick.chip.cmdOpen sn.idx).txFsr sn.idx ≤ _ at this
    omega
  · exact (hl.calm sn.idx).txs.trans (hsz.trans sz)

/-! ## Sending to an address -/

theorem txOnly_sendTo (sn : Sn) (addr : SockAddr) (p : WProg Unit) (w : World) : TxOnly sn.idx w (emitSendTo false sn p addr w).2 := by
  unfold emitSendTo socketWriter
  simp only [bind_assoc, pure_bind]
  refine (TxOnly.tick _ w).trans ?_
  rw [M.bind_ok (run_snTxPtrs sn w)]
  generalize hr : ({ sn := sn, head := _, tail := _, ptr := _ } : Ptrs) = r
  have hsn : r.sn = sn := by rw [← hr]
  have h1 := txOnly_wprog p w.tick r
  have h2 := wprog_sn (b := worldBus) p w.tick r
  rw [M.bind_run]
  unfold onWriter
  rcases hp : p.run (writerOps worldBus) (w.tick, r) with ⟨e | a, w2, r2⟩
  · rw [hp, hsn] at h1
    exact h1
  · rw [hp, hsn] at h1
    rw [hp, hsn] at h2
    change r2.sn = sn at h2
    refine h1.trans ?_
    show TxOnly sn.idx w2 (udpWriterSendTo false worldBus r2 addr w2).2
    unfold udpWriterSendTo
    rw [M.bind_ok (show debugAssert false (srIsUdp worldBus r2.sn) w2 = (.ok (), w2) from rfl), M.bind_ok (run_setSnDest r2.sn addr w2)]
    have h3 := txOnly_writerSend r2 { w2.tick with chip := setDest w2.tick.chip r2.sn.idx addr }
    rw [h2] at h3 ⊢
    refine (TxOnly.tick _ w2).trans (TxOnly.trans ?_ h3)
    exact TxOnly.of_mem (fun a ha => setDest_same _ _ _ _ _ (by omega)) (fun a => setDest_same _ _ _ _ _ (by omega)) rfl

/-- The destination registers hold the address the datagram was sent to. -/
theorem dest_sendTo (sn : Sn) (addr : SockAddr) (p : WProg Unit) (w w' : World) (h : emitSendTo false sn p addr w = (.ok (), w')) :
    w'.chip.destIp sn.idx = addr.ip.octets ∧ w'.chip.destPort sn.idx = addr.port.toNat := by
  unfold emitSendTo at h
  obtain ⟨r, w1, h1, h⟩ := M.bind_ok_inv h
  have hsn : r.sn = sn := by
    unfold socketWriter at h1
    rw [M.bind_ok (run_snTxPtrs sn w)] at h1
    injection h1 with h1 _
    injection h1 with h1
    rw [← h1]
  obtain ⟨⟨_, r2⟩, w2, h2, h⟩ := M.bind_ok_inv h
  have hr2 := (onWriter_rel (b := worldBus) (R := fun _ _ => True) (fun _ => trivial) (fun _ _ _ _ _ => trivial) (sn := sn) (fun _ _ _ => trivial) r hsn p w1).2 () r2 (by rw [h2])
  dsimp only at h
  unfold udpWriterSendTo at h
  rw [M.bind_ok (show debugAssert false (srIsUdp worldBus r2.sn) w2 = (.ok (), w2) from rfl), M.bind_ok (run_setSnDest r2.sn addr w2), hr2] at h
  unfold writerSend at h
  rw [M.bind_ok (run_setSnTxWr r2.sn r2.ptr _), run_setSnCr, hr2] at h
  injection h with _ h
  rw [← h]
  have hd := Thm.setDest_dest w2.tick.chip sn.idx addr
  generalize hx : ({ w2.tick with chip := setDest w2.tick.chip sn.idx addr } : World) = x at *
  have hdx : Thm.HasDest x.chip sn.idx addr := by rw [← hx]; exact hd
  generalize hy : ({ x.tick with chip := x.tick.chip.setReg sn.idx 0x24 r2.ptr.toNat } : World) = y
  have hdy : Thm.HasDest y.chip sn.idx addr := by
    rw [← hy]
    refine hdx.keep fun a ha => ?_
    exact (setWord_config _ _ _ _ _ (by omega) ha).trans (tick_config x _ _ ha)
  show Thm.HasDest (y.tick.chip.command sn.idx SocketCommand.send.code) sn.idx addr
  exact hdy.keep fun a ha => (command_config y.tick.chip sn.idx a _ ha).trans (tick_config y sn.idx _ ha)

end Verif
