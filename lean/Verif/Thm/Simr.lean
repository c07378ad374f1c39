import Verif.Proof.DhcpInv
import Verif.Model.Mqtt
import Verif.Model.Sntp
/-!
# C76: setting up a client's socket keeps the interrupts of the other sockets enabled
-/
namespace Verif.Thm
open Verif Hl Spec

/-- The socket interrupt mask register SIMR (common block, 0x18): bit `n` enables the interrupts of socket `n`. -/
def simrOf (w : World) : UInt8 := w.chip.mem 0 0x18

/-- Leaves the register as it is. -/
def KeepsSimr {α : Type} (m : M World α) : Prop := ∀ w, simrOf (m w).2 = simrOf w

theorem tick_simr (w : World) : simrOf w.tick = simrOf w := tick_mem0 w 0x18

theorem KeepsSimr.bind {α β : Type} {m : M World α} {f : α → M World β} (hm : KeepsSimr m) (hf : ∀ a, KeepsSimr (f a)) :
    KeepsSimr (m >>= f) := by
  intro w
  rw [M.bind_run]
  have := hm w
  rcases e : m w with ⟨e | a, w'⟩
  · rw [e] at this; exact this
  · rw [e] at this; exact (hf a w').trans this

/-- The accesses to the blocks of a socket. -/
theorem closedSimr (sn : Sn) : Closed worldBus (OwnBlock sn) (fun m => KeepsSimr m) := by
  refine closed_of_rel (fun (s t : World) => simrOf t = simrOf s) (fun _ => rfl) (fun _ _ _ h1 h2 => Eq.trans h2 h1) ?_ ?_
  · intro a blk n s
    rw [worldBus_read]; exact tick_simr s
  · intro a blk bs s hW
    rw [worldBus_write]
    refine Eq.trans ?_ (tick_simr s)
    unfold simrOf
    have hb : blk.toNat = 4 * sn.idx + 1 ∨ blk.toNat = 4 * sn.idx + 2 ∨ blk.toNat = 4 * sn.idx + 3 := by
      rcases hW with h | h | h <;> rw [h]
      · exact .inl (Sn.block_toNat sn)
      · exact .inr (.inl (Sn.txBlock_toNat sn))
      · exact .inr (.inr (Sn.rxBlock_toNat sn))
    exact (writeBytes_frame sn.idx blk.toNat hb bs s.tick.chip a.toNat).1 0 _ (by omega) (by omega) (by omega)

/-- Reading the register, setting a bit and continuing with something that does not touch it. -/
theorem simr_or {α : Type} (v : UInt8) (m : M World α) (hm : KeepsSimr m) (w : World) :
    simrOf ((worldBus.simr >>= fun simr => worldBus.setSimr (v ||| simr) >>= fun _ => m) w).2 = v ||| simrOf w := by
  have e1 : worldBus.simr w = (.ok (simrOf w.tick), w.tick) := rfl
  have e2 (x : UInt8) : worldBus.setSimr x w.tick =
      (.ok (), { w.tick.tick with chip := { w.tick.tick.chip with mem := w.tick.tick.chip.mem.store 0 0x18 x } }) := rfl
  rw [M.bind_ok e1, M.bind_ok (e2 _), hm, tick_simr]
  simp [simrOf, Mem.store]

theorem keepsSimr_setSipr (v : Ipv4) : KeepsSimr (worldBus.setSipr v) := by
  intro w
  show (w.tick.chip.writeBytes 0 15 [v.a, v.b, v.c, v.d]).mem 0 0x18 = _
  rw [writeBytes_common _ _ _ _ _ _ (by omega)]
  exact tick_simr w

theorem keepsSimr_imr (sn : Sn) (v : SocketInterruptMask) : KeepsSimr (worldBus.setSnImr sn v) := by
  have h := closedSimr sn
  unfold Bus.setSnImr; closed_tac h

/-- **C76.**  Setting up the socket of a DHCP, SNTP or MQTT client, whatever else happens meanwhile and whatever its result,
enables the interrupts of this socket and leaves those of the other sockets enabled or disabled as they were. -/
theorem C76_other_interrupts_are_kept (dbg : Bool) (fuel : Nat) (w : World) :
    (∀ c : Dhcp.Client, simrOf (Dhcp.setupSocket dbg fuel worldBus c w).2 = c.sn.bitmask ||| simrOf w) ∧
    (∀ c : Sntp.Client, simrOf (Sntp.setupSocket dbg fuel worldBus c w).2 = c.sn.bitmask ||| simrOf w) ∧
    (∀ (c : Mqtt.Client) (secs : UInt32),
      simrOf (Mqtt.tcpConnectMqtt dbg fuel worldBus secs (w, c)).2.1 = c.sn.bitmask ||| simrOf w) := by
  refine ⟨fun c => ?_, fun c => ?_, fun c secs => ?_⟩
  · have h := closedSimr c.sn
    exact simr_or _ _ (.bind (keepsSimr_imr _ _) fun _ => .bind (closed_close h) fun _ => .bind (keepsSimr_setSipr _) fun _ =>
      closed_udpBind h _ _ _) w
  · have h := closedSimr c.sn
    exact simr_or _ _ (.bind (keepsSimr_imr _ _) fun _ => .bind (closed_close h) fun _ => .bind (closed_udpBind h _ _ _) fun _ =>
      closed_setSnDest h _) w
  · have h := closedSimr c.sn
    have k : KeepsSimr (worldBus.setSnImr c.sn SocketInterruptMask.default.maskSendok >>= fun _ =>
        tcpConnect dbg fuel worldBus c.sn c.srcPort c.server) :=
      .bind (keepsSimr_imr _ _) fun _ => closed_tcpConnect h _ _ _ _
    rw [← simr_or c.sn.bitmask _ k w]
    have fuse {α β : Type} (m : M World α) (f : α → M World β) (g : β → M (World × Mqtt.Client) UInt32) :
        (Mqtt.onBus m >>= fun a => Mqtt.onBus (f a) >>= g) = (Mqtt.onBus (m >>= f) >>= g) := by
      funext s
      simp only [M.bind_run, Mqtt.onBus]
      rcases m s.1 with ⟨e | a, w'⟩ <;> rfl
    unfold Mqtt.tcpConnectMqtt
    rw [M.bind_ok (show Mqtt.getC (w, c) = (.ok c, (w, c)) from rfl)]
    simp only [fuse]
    rw [M.bind_run]
    simp only [Mqtt.onBus]
    generalize (worldBus.simr >>= _ : M World Unit) w = x
    rcases x with ⟨e | a, w'⟩ <;> rfl

/-- The bit of a socket, in words. -/
theorem C76_bitmask (sn : Sn) : sn.bitmask.toNat = 2 ^ sn.toU8.toNat := by cases sn <;> decide

example : Sn.sn5.bitmask ||| 0x41 = 0x61 := by decide

end Verif.Thm
