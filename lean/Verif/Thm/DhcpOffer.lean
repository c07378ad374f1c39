import Verif.Thm.DhcpLink
/-!
# C74: the DHCP client answers an OFFER
-/
namespace Verif.Thm
open Verif Hl Spec Dhcp

theorem run_yiaddr {d : Bytes} (hd : 20 ≤ d.length) (pos : Nat) :
    pktYiaddr.run cursorOps ⟨d, pos⟩ = (.ok (quad (field d 16 4)), ⟨d, 20⟩) := by
  unfold pktYiaddr
  rw [RProg.bind_ok (cur_seekStart (o := 16) (by show 16 ≤ d.length; omega)),
    RProg.bind_ok (cur_readExact (d := d) (by show 4 ≤ d.length - 16; omega))]
  rfl

/-- C74 (the part that holds): a message with an address for the client in the field `yiaddr` is, in the state `Selecting`, answered with a
REQUEST for this address which names the server in option 54 of this message (and none if there is none); the
client is in state `Requesting` and waits for the answer from now on.  When the transmit buffer is too full for the request
`process` fails.  Missing: the message is not required to be an OFFER, see `C74_nak_taken_as_offer`. -/
theorem C74_offer_partial (dbg : Bool) (fuel : Nat) (secs : UInt32) (w : World) (u : UdpReader) (d : Bytes) (pos base p : Nat) (c : Client)
    (sid : Option Bytes) (hu : UR w u c.sn d pos base p) (hd : d.length ≤ 65280) (h20 : 20 ≤ d.length) (hs : c.state = .selecting)
    (h54 : contents d 54 (fun n => n % 4 == 0 && 4 ≤ n) 4 = .ok sid)
    (hv : ValidHostname c.hostname) (ht : TxState w.chip c.sn.toU8.toNat) :
    let r := handle dbg fuel worldBus secs u (w, c)
    r.2.2.ip.octets = field d 16 4 ∧ r.2.2.serverId.map Ipv4.octets = sid ∧
    ((r.1 = .ok none ∧ r.2.2.state = .requesting ∧ r.2.2.stateTimeout = some secs ∧
      ∃ payload, r.2.1.chip.sent = w.chip.sent ++
        [⟨c.sn.toU8.toNat, w.chip.destIp c.sn.toU8.toNat, w.chip.destPort c.sn.toU8.toNat, payload⟩] ∧
        decode payload = some (requestMessage c.mac r.2.2.ip c.hostname r.2.2.serverId r.2.2.xid)) ∨
     ((∃ e, r.1 = .error e) ∧ r.2.2.state = .selecting ∧ r.2.1.chip.sent = w.chip.sent ∧
      w.chip.txFsr c.sn.toU8.toNat < 275 + c.hostname.length)) := by
  change TxState w.chip c.sn.idx at ht
  have q1 : (quad (field d 16 4)).octets = field d 16 4 := quad_octets (by unfold field; simp; omega)
  have q2 : (sid.map quad).map Ipv4.octets = sid := by
    rcases sid with _ | x
    · rfl
    · simp only [Option.map_some]; rw [quad_octets (contents_length h54)]
  have gm := gives_list hd 54 (Reached.start.ok hd)
  rw [h54] at gm
  obtain ⟨w1, u1, r1, l1, hu1⟩ := hu.run_ok (run_yiaddr h20 pos)
  obtain ⟨c2, p2, k2, -, e2⟩ := gm 20 h20
  obtain ⟨w2, u2, r2, l2, hu2⟩ := hu1.run_ok e2
  obtain ⟨w3, r3, -, -, h5⟩ := hu2.done_calm
  have kk : TxCalm c.sn.idx w w3 := ((l1.trans l2).calm c.sn.idx).toTxCalm.trans h5
  have hrun : handle dbg fuel worldBus secs u (w, c) =
      ((request worldBus >>= fun _ => modC (Client.setStateWithTimeout .requesting secs)) >>= fun _ => pure none)
        (w3, { c with ip := quad (field d 16 4), serverId := sid.map quad }) := by
    unfold handle
    rw [M.bind_ok (show getC (w, c) = (.ok c, (w, c)) from rfl), hs]
    dsimp only
    unfold onOffer
    rw [bind_assoc, bind_onBus, r1]
    dsimp only
    rw [bind_assoc, M.bind_ok (show modC (fun c => { c with ip := quad (field d 16 4) }) (w1, c) =
      (.ok (), (w1, { c with ip := quad (field d 16 4) })) from rfl), bind_assoc, bind_onBus]
    rw [show onUdpReader worldBus u1 (dhcpServer .empty) w1 = _ from r2]
    dsimp only
    rw [bind_assoc, M.bind_ok (show modC (fun c => { c with serverId := sid.map quad }) (w2, { c with ip := quad (field d 16 4) }) =
      (.ok (), (w2, { c with ip := quad (field d 16 4), serverId := sid.map quad })) from rfl), bind_assoc, bind_onBus, r3]
    dsimp only
    rw [hs]
  intro r
  have hr : r = _ := hrun
  clear_value r
  have hreq := request_client (b := worldBus) w3 { c with ip := quad (field d 16 4), serverId := sid.map quad }
  obtain ⟨x, rnd, hx⟩ := rexid_eq { c with ip := quad (field d 16 4), serverId := sid.map quad }
  rw [hx] at hreq
  dsimp only at hreq
  rcases C32_send_request c.sn c.mac (quad (field d 16 4)) c.hostname (sid.map quad) x w3 hv (kk.tx ht) with
    ⟨w4, payload, g1, g2, g3⟩ | ⟨e, w4, g1, g2, g3⟩
  · rw [g1] at hreq
    rw [bind_assoc, M.bind_ok hreq] at hr
    rw [hr]
    refine ⟨q1, q2, .inl ⟨rfl, rfl, rfl, payload, ?_, g3⟩⟩
    refine g2.trans ?_
    rw [kk.sent]
    exact congrArg _ (by
      have := kk.dip; have h2 := kk.dport
      change w3.chip.destIp c.sn.idx = w.chip.destIp c.sn.idx at this
      change w3.chip.destPort c.sn.idx = w.chip.destPort c.sn.idx at h2
      change [(⟨c.sn.idx, w3.chip.destIp c.sn.idx, w3.chip.destPort c.sn.idx, payload⟩ : Sent)] = _
      rw [this, h2])
  · rw [g1] at hreq
    rw [bind_assoc, M.bind_error hreq] at hr
    rw [hr]
    refine ⟨q1, q2, .inr ⟨⟨e, rfl⟩, hs, g2.trans kk.sent, ?_⟩⟩
    have := kk.free ht
    change w3.chip.txFsr c.sn.idx < _ at g3
    change w.chip.txFsr c.sn.idx < _
    omega

/-- A NAK (message type 6) without an address. -/
def sampleNak : Bytes :=
  [2, 1, 6, 0, 0, 0, 0, 7] ++ List.replicate 228 0 ++ [99, 130, 83, 99] ++ [53, 1, 6, 54, 4, 10, 0, 0, 1, 255]

/-- An OFFER of 10.10.10.10. -/
def sampleOffer : Bytes :=
  [2, 1, 6, 0, 0, 0, 0, 7] ++ List.replicate 8 0 ++ [10, 10, 10, 10] ++ List.replicate 216 0 ++ [99, 130, 83, 99] ++
    [53, 1, 2, 54, 4, 10, 0, 0, 1, 255]

/-- A client that has sent a DISCOVER. -/
def selectingClient : Client :=
  { Client.new .sn5 1 ⟨2, 0, 17, 34, 51, 68⟩ [104] with state := .selecting, stateTimeout := some 90, xid := 7 }

set_option maxRecDepth 8000 in
/-- C74 is false in this: in the state `Selecting` the type of the message is not looked at; a NAK is answered with a REQUEST, here for
the address 0.0.0.0. -/
theorem C74_nak_taken_as_offer :
    let r := process false 3 3 worldBus 92 (queueWorld [0, 0, 0, 0] [⟨server, sampleNak⟩], selectingClient)
    contents sampleNak 53 (· == 1) 1 = .ok (some [6]) ∧ r.2.2.state = .requesting ∧ r.2.2.ip = ⟨0, 0, 0, 0⟩ ∧
    r.2.1.chip.sent.map (fun s => ((decode s.payload).map fun m => m.options.filter fun o => o.1 = 53 ∨ o.1 = 50)) =
      [some [(53, [3]), (50, [0, 0, 0, 0])]] := by
  refine ⟨by decide +kernel, by decide +kernel, by decide +kernel, by decide +kernel⟩

set_option maxRecDepth 8000 in
/-- The hypotheses of `C74_offer_partial` on an OFFER, and what `process` makes of it. -/
example :
    let w := queueWorld [0, 0, 0, 0] [⟨server, sampleOffer⟩]
    let r := process false 3 3 worldBus 92 (w, selectingClient)
    20 ≤ sampleOffer.length ∧ field sampleOffer 16 4 = [10, 10, 10, 10] ∧ ValidHostname selectingClient.hostname ∧
    contents sampleOffer 54 (fun n => n % 4 == 0 && 4 ≤ n) 4 = .ok (some [10, 0, 0, 1]) ∧
    r.2.2.ip = ⟨10, 10, 10, 10⟩ ∧ r.2.2.serverId = some ⟨10, 0, 0, 1⟩ ∧ r.2.2.state = .requesting ∧
    r.2.1.chip.sent.map (fun s => ((decode s.payload).map fun m => m.options.filter fun o => o.1 = 53 ∨ o.1 = 50 ∨ o.1 = 54)) =
      [some [(53, [3]), (50, [10, 10, 10, 10]), (54, [10, 0, 0, 1])]] := by
  refine ⟨by decide +kernel, by decide +kernel, ⟨by decide, by decide, [[104]], by decide, by decide, by unfold ValidLabel isAlnum; decide⟩, by decide +kernel, by decide +kernel, by decide +kernel, by decide +kernel, by decide +kernel⟩

end Verif.Thm
