import Verif.Proof.Emit
import Verif.Model.Dhcp
import Verif.Spec.Dhcp
import Verif.Spec.Hostname
import Verif.Thm.Hostname
/-!
# C32: the messages sent
-/
namespace Verif.Thm
open Verif Hl Spec Dhcp Spec.Dhcp

/-! ## What is written -/

/-- The fixed part as the client writes it. -/
def dhcpHeader (mac : Eui48) (xid : UInt32) : Bytes :=
  ([1] : Bytes) ++ (([1] : Bytes) ++ (([6] : Bytes) ++ (([0] : Bytes) ++ (toBe32 xid ++ (toBe16 0 ++ ([(1 : UInt8) <<< 7, 0] ++ (Ipv4.unspecified.octets ++
    (Ipv4.unspecified.octets ++ (Ipv4.unspecified.octets ++ (Ipv4.unspecified.octets ++
    ((mac.octets ++ List.replicate 10 0) ++ (List.replicate 64 0 ++ ((List.replicate 64 0 ++ List.replicate 64 0) ++
    ([0x63, 0x82, 0x53, 0x63] ++ []))))))))))))))

set_option maxRecDepth 4000 in
theorem dhcpHeader_length (mac : Eui48) (xid : UInt32) : (dhcpHeader mac xid).length = 240 := rfl

theorem emits_setAt {k : Nat} {off : UInt16} (h : off.toNat = k) (bs : Bytes) : EmitsAt k (setAt off bs) bs :=
  (EmitsAt.bind (.seek h) (.writeAll _ bs)).cast rfl (List.nil_append _)

theorem EmitsAt.bindAt {k k' : Nat} {p : WProg Unit} {q : Unit → WProg Unit} {a b : Bytes} (hp : EmitsAt k p a)
    (hk : k + a.length = k') (hq : EmitsAt k' (q ()) b) : EmitsAt k (p >>= q) (a ++ b) :=
  .bind hp (hk ▸ hq)

theorem emits_prepare (mac : Eui48) (xid : UInt32) : EmitsAt 0 (prepareMessage mac xid) (dhcpHeader mac xid) := by
  unfold prepareMessage dhcpHeader setChaddr setFileZero
  refine EmitsAt.bindAt (k' := 1) (emits_setAt (by rfl) _) rfl ?_
  refine EmitsAt.bindAt (k' := 2) (emits_setAt (by rfl) _) rfl ?_
  refine EmitsAt.bindAt (k' := 3) (emits_setAt (by rfl) _) rfl ?_
  refine EmitsAt.bindAt (k' := 4) (emits_setAt (by rfl) _) rfl ?_
  refine EmitsAt.bindAt (k' := 8) (emits_setAt (by rfl) _) rfl ?_
  refine EmitsAt.bindAt (k' := 10) (emits_setAt (by rfl) _) rfl ?_
  refine EmitsAt.bindAt (k' := 12) (emits_setAt (by rfl) _) rfl ?_
  refine EmitsAt.bindAt (k' := 16) (emits_setAt (by rfl) _) rfl ?_
  refine EmitsAt.bindAt (k' := 20) (emits_setAt (by rfl) _) rfl ?_
  refine EmitsAt.bindAt (k' := 24) (emits_setAt (by rfl) _) rfl ?_
  refine EmitsAt.bindAt (k' := 28) (emits_setAt (by rfl) _) rfl ?_
  refine EmitsAt.bindAt (k' := 44) (.bind (emits_setAt (by rfl) _) (.writeAll _ _)) rfl ?_
  refine EmitsAt.bindAt (k' := 108) (emits_setAt (by rfl) _) (by simp) ?_
  refine EmitsAt.bindAt (k' := 236) (.bind (emits_setAt (by rfl) _) (.writeAll _ _)) (by simp) ?_
  refine EmitsAt.bindAt (k' := 240) (emits_setAt (by rfl) _) rfl ?_
  exact .seek (by rfl)

/-- The options of a DISCOVER as the client writes them. -/
def discoverOptions (mac : Eui48) (hostname : Bytes) : Bytes :=
  [53, 1, 1] ++ (([61, 7, 1] ++ mac.octets) ++ (([12, hostnameLen hostname] ++ hostname) ++ [255]))

/-- The server identifier as the client writes it. -/
def serverIdOption : Option Ipv4 → Bytes
  | some ip => [54, 4] ++ ip.octets
  | none => []

/-- The options of a REQUEST as the client writes them. -/
def requestOptions (mac : Eui48) (ip : Ipv4) (hostname : Bytes) (serverId : Option Ipv4) : Bytes :=
  [53, 1, 3] ++ (([61, 7, 1] ++ mac.octets) ++ (([12, hostnameLen hostname] ++ hostname) ++
    ([55, 6, 1, 3, 6, 58, 59, 42] ++ (([50, 4] ++ ip.octets) ++ (serverIdOption serverId ++ [255])))))

theorem emits_discover (mac : Eui48) (hostname : Bytes) (xid : UInt32) :
    EmitsAt 0 (dhcpDiscover mac hostname xid) (dhcpHeader mac xid ++ discoverOptions mac hostname) :=
  .bind (emits_prepare mac xid) <| .bind (.writeAll _ _) <| .bind (.bind (.writeAll _ _) (.writeAll _ _)) <|
  .bind (.bind (.writeAll _ _) (.writeAll _ _)) (.writeAll _ _)

theorem emits_serverId (k : Nat) (s : Option Ipv4) : EmitsAt k (setOptionServerIdOpt s) (serverIdOption s) := by
  cases s with
  | none => exact .nil k
  | some ip => exact .bind (.writeAll _ _) (.writeAll _ _)

theorem emits_request (mac : Eui48) (ip : Ipv4) (hostname : Bytes) (serverId : Option Ipv4) (xid : UInt32) :
    EmitsAt 0 (dhcpRequest mac ip hostname serverId xid) (dhcpHeader mac xid ++ requestOptions mac ip hostname serverId) :=
  .bind (emits_prepare mac xid) <| .bind (.writeAll _ _) <| .bind (.bind (.writeAll _ _) (.writeAll _ _)) <|
  .bind (.bind (.writeAll _ _) (.writeAll _ _)) <| .bind (.writeAll _ _) <| .bind (.bind (.writeAll _ _) (.writeAll _ _)) <|
  .bind (emits_serverId _ _) (.writeAll _ _)

/-! ## Decoding it again -/

/-- The message RFC 2131 table 5 asks for, with the broadcast flag set. -/
def bootRequest (mac : Eui48) (xid : UInt32) (options : List (Nat × Bytes)) : Message :=
  { op := 1, htype := 1, hlen := 6, hops := 0, xid := xid.toNat, secs := 0, flags := 0x8000
    ciaddr := [0, 0, 0, 0], yiaddr := [0, 0, 0, 0], siaddr := [0, 0, 0, 0], giaddr := [0, 0, 0, 0]
    chaddr := mac.octets ++ List.replicate 10 0, sname := List.replicate 64 0, file := List.replicate 128 0
    options := options, rest := [] }

/-- DHCPDISCOVER: message type, client identifier (hardware type 1 and address) and host name. -/
def discoverMessage (mac : Eui48) (hostname : Bytes) (xid : UInt32) : Message :=
  bootRequest mac xid [(53, [1]), (61, 1 :: mac.octets), (12, hostname)]

/-- DHCPREQUEST: the same, the parameters wanted (subnet mask, router, DNS, T1, T2, NTP), the requested address
and, if known, the server. -/
def requestMessage (mac : Eui48) (ip : Ipv4) (hostname : Bytes) (serverId : Option Ipv4) (xid : UInt32) : Message :=
  bootRequest mac xid ([(53, [3]), (61, 1 :: mac.octets), (12, hostname), (55, [1, 3, 6, 58, 59, 42]), (50, ip.octets)] ++
    match serverId with
    | some s => [(54, s.octets)]
    | none => [])

theorem num_be32 (x : UInt32) : num (toBe32 x) = x.toNat := by
  unfold toBe32 num
  have : ∀ k : UInt32, (x >>> k).toUInt8.toNat = (x.toNat >>> (k.toNat % 32)) % 256 := by
    intro k; simp
  simp only [List.foldl_cons, List.foldl_nil]
  rw [this, this, this]
  simp only [Nat.shiftRight_eq_div_pow]
  have hx : x.toNat < 4294967296 := x.toNat_lt
  have h0 : x.toUInt8.toNat = x.toNat % 256 := by simp
  rw [h0]
  show ((((0 * 256 + x.toNat / 2 ^ 24 % 256) * 256 + x.toNat / 2 ^ 16 % 256) * 256 + x.toNat / 2 ^ 8 % 256) * 256 + x.toNat % 256) = _
  omega

theorem decode_header (mac : Eui48) (xid : UInt32) (opts : Bytes) (os : List (Nat × Bytes))
    (h : ∀ n, opts.length < n → decodeOptions n opts = some (os, [])) :
    decode (dhcpHeader mac xid ++ opts) = some (bootRequest mac xid os) := by
  unfold decode
  rw [if_pos (show field (dhcpHeader mac xid ++ opts) 236 4 = [99, 130, 83, 99] from rfl),
    show (dhcpHeader mac xid ++ opts).drop 240 = opts from rfl, h _ (by rw [List.length_append]; omega)]
  have hx : num (field (dhcpHeader mac xid ++ opts) 4 4) = xid.toNat := num_be32 xid
  show some (Message.mk _ _ _ _ _ _ _ _ _ _ _ _ _ _ _ _) = _
  rw [hx]
  rfl

/-- Decoding one option. -/
theorem decode_option (c l : UInt8) (v r : Bytes) (os : List (Nat × Bytes)) (n : Nat) (hc : c ≠ 0) (hc' : c ≠ 255)
    (hl : l.toNat = v.length) (h : decodeOptions n r = some (os, [])) :
    decodeOptions (n + 1) (c :: l :: (v ++ r)) = some ((c.toNat, v) :: os, []) := by
  rw [decodeOptions, if_neg hc, if_neg hc', if_pos (by rw [List.length_append]; omega), hl, List.drop_left, h, List.take_left]
  rfl

theorem hostnameLen_toNat {s : Bytes} (h : ValidHostname s) : (hostnameLen s).toNat = s.length :=
  (C20_len_and_labels s s ((C20_new_accepts_exactly s).1 h)).1

theorem decode_end (n : Nat) : decodeOptions (n + 1) [255] = some ([], []) := rfl

theorem decode_discover (mac : Eui48) (hostname : Bytes) (xid : UInt32) (hv : ValidHostname hostname) :
    decode (dhcpHeader mac xid ++ discoverOptions mac hostname) = some (discoverMessage mac hostname xid) := by
  refine decode_header mac xid _ _ fun n hn => ?_
  have hn : 4 ≤ n := by
    have : (discoverOptions mac hostname).length = 12 + (2 + hostname.length + 1) := by
      simp [discoverOptions, Eui48.octets]; omega
    omega
  obtain ⟨m, rfl⟩ : ∃ m, n = m + 1 + 1 + 1 + 1 := ⟨n - 4, by omega⟩
  have e : discoverOptions mac hostname = 53 :: 1 :: ([1] ++ (61 :: 7 :: ((1 :: mac.octets) ++
      (12 :: hostnameLen hostname :: (hostname ++ [255]))))) := by simp [discoverOptions]
  rw [e]
  exact decode_option _ _ _ _ _ _ (by decide) (by decide) rfl <| decode_option _ _ _ _ _ _ (by decide) (by decide) rfl <|
    decode_option _ _ _ _ _ _ (by decide) (by decide) (hostnameLen_toNat hv) (decode_end m)

theorem decode_request (mac : Eui48) (ip : Ipv4) (hostname : Bytes) (serverId : Option Ipv4) (xid : UInt32)
    (hv : ValidHostname hostname) :
    decode (dhcpHeader mac xid ++ requestOptions mac ip hostname serverId) =
      some (requestMessage mac ip hostname serverId xid) := by
  refine decode_header mac xid _ _ fun n hn => ?_
  have hn : 7 ≤ n := by
    have : 12 + (2 + hostname.length + 14) ≤ (requestOptions mac ip hostname serverId).length := by
      simp [requestOptions, Eui48.octets, Ipv4.octets]; omega
    omega
  obtain ⟨m, rfl⟩ : ∃ m, n = m + 1 + 1 + 1 + 1 + 1 + 1 + 1 := ⟨n - 7, by omega⟩
  have e : requestOptions mac ip hostname serverId = 53 :: 1 :: ([3] ++ (61 :: 7 :: ((1 :: mac.octets) ++
      (12 :: hostnameLen hostname :: (hostname ++ (55 :: 6 :: ([1, 3, 6, 58, 59, 42] ++ (50 :: 4 :: (ip.octets ++
      (serverIdOption serverId ++ [255])))))))))) := by simp [requestOptions]
  rw [e]
  refine decode_option _ _ _ _ _ _ (by decide) (by decide) rfl <| decode_option _ _ _ _ _ _ (by decide) (by decide) rfl <|
    decode_option _ _ _ _ _ _ (by decide) (by decide) (hostnameLen_toNat hv) <|
    decode_option _ _ _ _ _ _ (by decide) (by decide) rfl <| decode_option _ _ _ _ _ _ (by decide) (by decide) rfl ?_
  cases serverId with
  | none => exact decode_end _
  | some s => exact decode_option _ _ _ _ _ _ (by decide) (by decide) rfl (decode_end m)

/-! ## C32 -/

/-- C32: `send_dhcp_discover` with a valid host name, on an idle transmit side: either exactly one datagram goes
out, to the given address, and decodes to the DISCOVER message for the arguments; or the call fails, nothing is
sent, and the message did not fit the free space (or a debug assertion failed). -/
theorem C32_send_discover (dbg : Bool) (sn : Sn) (mac : Eui48) (hostname : Bytes) (xid : UInt32) (addr : SockAddr)
    (w : World) (hv : ValidHostname hostname) (ht : TxState w.chip sn.toU8.toNat) :
    (∃ w' payload, sendDhcpDiscover dbg worldBus sn mac hostname xid addr w = (.ok (), w') ∧
      w'.chip.sent = w.chip.sent ++ [⟨sn.toU8.toNat, addr.ip.octets, addr.port.toNat, payload⟩] ∧
      decode payload = some (discoverMessage mac hostname xid)) ∨
    (∃ e w', sendDhcpDiscover dbg worldBus sn mac hostname xid addr w = (.error e, w') ∧ w'.chip.sent = w.chip.sent ∧
      (w.chip.txFsr sn.toU8.toNat < 255 + hostname.length ∨ dbg = true)) := by
  change TxState w.chip sn.idx at ht
  have hl : (dhcpHeader mac xid ++ discoverOptions mac hostname).length = 255 + hostname.length := by
    rw [List.length_append, dhcpHeader_length]; simp [discoverOptions, Eui48.octets]; omega
  rcases emitSendTo_run (dbg := dbg) ht (emits_discover mac hostname xid) addr with ⟨w', h1, _, h2⟩ | ⟨e, w', h1, h2, h3⟩
  · exact .inl ⟨w', _, h1, h2, decode_discover mac hostname xid hv⟩
  · rw [hl] at h3
    exact .inr ⟨e, w', h1, h2, h3⟩

/-- C32: `send_dhcp_request` likewise; the datagram goes to the address the socket sent to last. -/
theorem C32_send_request (sn : Sn) (mac : Eui48) (ip : Ipv4) (hostname : Bytes) (serverId : Option Ipv4) (xid : UInt32)
    (w : World) (hv : ValidHostname hostname) (ht : TxState w.chip sn.toU8.toNat) :
    (∃ w' payload, sendDhcpRequest worldBus sn mac ip hostname serverId xid w = (.ok (), w') ∧
      w'.chip.sent = w.chip.sent ++ [⟨sn.toU8.toNat, w.chip.destIp sn.toU8.toNat, w.chip.destPort sn.toU8.toNat, payload⟩] ∧
      decode payload = some (requestMessage mac ip hostname serverId xid)) ∨
    (∃ e w', sendDhcpRequest worldBus sn mac ip hostname serverId xid w = (.error e, w') ∧ w'.chip.sent = w.chip.sent ∧
      w.chip.txFsr sn.toU8.toNat < 275 + hostname.length) := by
  change TxState w.chip sn.idx at ht
  have hl : (dhcpHeader mac xid ++ requestOptions mac ip hostname serverId).length ≤ 275 + hostname.length := by
    rw [List.length_append, dhcpHeader_length]
    cases serverId <;> simp [requestOptions, Eui48.octets, Ipv4.octets, serverIdOption] <;> omega
  rcases emitSend_run ht (emits_request mac ip hostname serverId xid) with ⟨w', h1, _, h2⟩ | ⟨e, w', h1, h2, h3⟩
  · exact .inl ⟨w', _, h1, h2, decode_request mac ip hostname serverId xid hv⟩
  · exact .inr ⟨e, w', h1, h2, by change w.chip.txFsr sn.idx < _; omega⟩

/-- The messages are different for different arguments, so the theorems determine what is sent. -/
example : discoverMessage ⟨1, 2, 3, 4, 5, 6⟩ [97] 7 ≠ discoverMessage ⟨1, 2, 3, 4, 5, 7⟩ [97] 7 := by decide

example : ∃ w', sendDhcpDiscover false worldBus .sn5 ⟨2, 0, 17, 34, 51, 68⟩ [104, 105] 0xDEADBEEF ⟨.broadcast, 67⟩ bound = (.ok (), w') ∧
    w'.chip.sent = [⟨5, [255, 255, 255, 255], 67, dhcpHeader ⟨2, 0, 17, 34, 51, 68⟩ 0xDEADBEEF ++
      [53, 1, 1, 61, 7, 1, 2, 0, 17, 34, 51, 68, 12, 2, 104, 105, 255]⟩] :=
  ⟨(sendDhcpDiscover false worldBus .sn5 ⟨2, 0, 17, 34, 51, 68⟩ [104, 105] 0xDEADBEEF ⟨.broadcast, 67⟩ bound).2,
    Prod.ext (by decide +kernel) rfl, by decide +kernel⟩

end Verif.Thm
