import Verif.Proof.Trace
import Verif.Model.Dns
import Verif.Model.Dhcp
import Verif.Model.Mqtt
import Verif.Model.Sntp
/-!
# The programs of the clients pass errors of the bus on
-/
namespace Verif.Thm
open Hl

/-! ## DNS -/
section
open Dns
theorem rp_labelsDone (cap idx : Nat) (buf : Bytes) (seekTo : UInt16) : Rp (labelsDone cap idx buf seekTo) := by unfold labelsDone; prog_tac []
theorem rp_labelStep (cap idx : Nat) (buf : Bytes) (seekTo : UInt16) (b0 : UInt8) (k : Nat → Bytes → RProg (Option Bytes))
    (hk : ∀ i b, Rp (k i b)) : Rp (labelStep cap idx buf seekTo b0 k) := by
  unfold labelStep
  refine Rp.bind (fun _ => ?_) _ (Rp.doSeek _)
  dsimp only
  split
  · exact rp_labelsDone _ _ _ _
  · split
    · exact Rp.bind (fun _ => hk _ _) _ (Rp.doReadExact _)
    · exact Rp.bind (fun _ => hk _ _) _ (Rp.doSeek _)
theorem rp_readLabelsLoop (cap : Nat) : ∀ (fuel idx : Nat) (buf : Bytes) (seekTo : UInt16), Rp (readLabelsLoop cap fuel idx buf seekTo) := by
  intro fuel
  induction fuel with
  | zero => intro _ _ _; exact Rp.throw fun _ => by nofun
  | succ n ih =>
    intro idx buf seekTo
    unfold readLabelsLoop
    refine Rp.bind (fun x => ?_) _ (Rp.doRead _)
    split
    · exact Rp.throw fun _ => by nofun
    · exact rp_labelStep _ _ _ _ _ _ fun _ _ => ih _ _ _
    · split
      · exact Rp.bind (fun _ => Rp.bind (fun _ => ih _ _ _) _ (Rp.doSeek _)) _ Rp.doStreamPosition
      · exact rp_labelStep _ _ _ _ _ _ fun _ _ => ih _ _ _
theorem rp_readLabels (fuel cap : Nat) : Rp (readLabels fuel cap) := rp_readLabelsLoop _ _ _ _ _
theorem rp_readU16 : Rp readU16 := by unfold readU16; prog_tac []
theorem rp_readU32 : Rp readU32 := by unfold readU32; prog_tac []
theorem rp_readRData (q : Except UInt16 Qtype) : Rp (readRData q) := by
  unfold readRData; prog_tac [rp_readU16]
theorem rp_skipRData (a l : UInt16) : Rp (skipRData a l) := by unfold skipRData; prog_tac [rp_readU16]
theorem rp_readRr (fuel cap : Nat) : Rp (readRr fuel cap) := by
  unfold readRr; prog_tac [rp_readU16, rp_readU32, rp_readLabels fuel cap, rp_readRData _, rp_skipRData _ _]
theorem rp_skipQuestions (fuel n : Nat) : Rp (skipQuestions fuel n) := by
  induction n with
  | zero => exact Rp.pure _
  | succ n ih =>
    unfold skipQuestions; prog_tac [rp_readLabels fuel 0, ih]
theorem rp_responseProg (fuel : Nat) (id : Option UInt16) : Rp (responseProg fuel id) := by
  unfold responseProg; prog_tac [rp_skipQuestions _ _]
theorem wp_writeLabels (l : List Bytes) : Wp (writeLabels l) := by
  induction l with
  | nil => exact Wp.pure _
  | cons _ _ ih => unfold writeLabels; prog_tac [ih]
theorem wp_question (h : Header) (t : Qtype) (n : Bytes) : Wp (question h t n) := by
  unfold question; prog_tac [wp_writeLabels _]
theorem wp_questions (qs : List (Qtype × Bytes)) : ∀ h, Wp (questions h qs) := by
  induction qs with
  | nil => intro h; exact Wp.pure _
  | cons q qs ih =>
    intro h
    unfold questions; prog_tac [wp_question _ _ _, ih _]
theorem wp_placeHeader (h : Header) : Wp (placeHeader h) := by unfold placeHeader; prog_tac [wp_question _ _ _]
theorem wp_queryProg (id : UInt16) (qs : List (Qtype × Bytes)) : Wp (queryProg id qs) := by
  unfold queryProg; prog_tac [wp_questions _ _, wp_placeHeader _]
end

/-! ## DHCP -/
section
open Dhcp
theorem wp_setAt (o : UInt16) (bs : Bytes) : Wp (setAt o bs) := by unfold setAt; prog_tac [wp_questions _ _, wp_placeHeader _]
theorem wp_prepareMessage (m : Eui48) (x : UInt32) : Wp (prepareMessage m x) := by
  unfold prepareMessage setChaddr setFileZero; prog_tac [wp_setAt _ _]
theorem wp_dhcpDiscover (m : Eui48) (h : Bytes) (x : UInt32) : Wp (dhcpDiscover m h x) := by
  unfold dhcpDiscover setOptionMsgType setOptionClientId setOptionHostname setOptionEnd; prog_tac [wp_prepareMessage _ _]
theorem wp_dhcpRequest (m : Eui48) (ip : Ipv4) (h : Bytes) (s : Option Ipv4) (x : UInt32) : Wp (dhcpRequest m ip h s x) := by
  have : Wp (setOptionServerIdOpt s) := by cases s <;> unfold setOptionServerIdOpt <;> (try unfold setOptionServerId) <;> prog_tac []
  unfold dhcpRequest setOptionMsgType setOptionClientId setOptionHostname setOptionEnd setOptionParameterRequest setOptionRequestedIp; prog_tac [wp_prepareMessage _ _, this]
theorem cacheFind_nb (o : UInt8) (c : Cache) : ∀ s, NB (cacheFind o c s) := by
  induction c with
  | nil => intro s x h; exact nomatch h
  | cons l ls ih =>
    intro s
    unfold cacheFind
    split
    · split
      · exact fun x h => nomatch h
      · split
        · exact ih _
        · exact fun x h => nomatch h
    · exact fun x h => nomatch h
theorem rp_seekLoop (o : UInt8) : ∀ (fuel : Nat) (c : Cache), Rp (seekLoop o fuel c) := by
  intro fuel
  induction fuel with
  | zero => intro _; exact Rp.throw fun _ => by nofun
  | succ n ih => intro c; unfold seekLoop; prog_tac [ih _]
theorem rp_seekToOption (o : UInt8) (c : Cache) : Rp (seekToOption o c) := by
  unfold seekToOption
  split
  · rename_i e h
    exact Rp.throw fun x hx => cacheFind_nb o c 240 x (by rw [h, hx])
  · prog_tac [rp_seekLoop _ _ _]
  · prog_tac [rp_seekLoop _ _ _]
theorem rp_fixed (n : Nat) (o : UInt8) (c : Cache) : Rp (findOptionFixedSize n o c) := by
  unfold findOptionFixedSize; prog_tac [rp_seekToOption _ _]
theorem rp_u32 (o : UInt8) (c : Cache) : Rp (findOptionU32 o c) := by
  unfold findOptionU32; prog_tac [rp_fixed _ _ _]
theorem rp_ipv4 (o : UInt8) (c : Cache) : Rp (findOptionIpv4 o c) := by
  unfold findOptionIpv4; prog_tac [rp_fixed _ _ _]
theorem rp_ipv4List (o : UInt8) (c : Cache) : Rp (findOptionIpv4List o c) := by
  unfold findOptionIpv4List; prog_tac [rp_seekToOption _ _]
theorem rp_msgType (c : Cache) : Rp (msgType c) := Rp.bind (fun _ => Rp.pure _) _ (rp_fixed _ _ _)
theorem rp_dhcpServer (c : Cache) : Rp (dhcpServer c) := rp_ipv4List _ _
theorem rp_pktYiaddr : Rp pktYiaddr := by unfold pktYiaddr; prog_tac []
theorem rp_checkProg (x : UInt32) : Rp (checkProg x) := by unfold checkProg isBootreply pktXid; prog_tac []
theorem rp_ackProg (c : Cache) : Rp (ackProg c) := by
  unfold ackProg ackOptsProg ackTimesProg subnetMask dhcpServer pktDns pktNtp leaseTime renewalTime rebindingTime
  prog_tac [rp_u32 _ _, rp_ipv4 _ _, rp_ipv4List _ _]
end

/-! ## MQTT -/
section
open Mqtt
theorem wp_writeVbi (n : UInt32) : Wp (writeVbi n) := by unfold writeVbi; prog_tac [rp_u32 _ _, rp_ipv4 _ _, rp_ipv4List _ _]
theorem wp_publishProg (t p : Bytes) : Wp (publishProg t p) := by
  unfold publishProg; prog_tac [wp_writeVbi _]
theorem filterLen_nb (dbg : Bool) (n : Nat) (x : UInt16) : NB (filterLen dbg n x) := by
  unfold filterLen
  split
  · exact fun x h => nomatch h
  · exact fun x h => nomatch h
theorem wp_subscribeProg (dbg : Bool) (f : Bytes) (i : UInt16) : Wp (subscribeProg dbg f i) := by
  unfold subscribeProg
  split
  · rename_i e h
    exact Wp.throw fun x hx => filterLen_nb dbg _ _ x (by rw [h, hx])
  · prog_tac [wp_writeVbi _]
theorem wp_unsubscribeProg (dbg : Bool) (f : Bytes) (i : UInt16) : Wp (unsubscribeProg dbg f i) := by
  unfold unsubscribeProg
  split
  · rename_i e h
    exact Wp.throw fun x hx => filterLen_nb dbg _ _ x (by rw [h, hx])
  · prog_tac [wp_writeVbi _]
theorem wp_connectProg (i : Option Bytes) (m : UInt16) : Wp (connectProg i m) := by
  unfold connectProg; prog_tac [wp_writeVbi _]
theorem rp_recvBody (s : State) (h : FixedHeader) : Rp (recvBody s h) := by
  unfold recvBody recvConnAck recvAck recvPublish skipProperties; prog_tac []
theorem rp_recvProg (dbg : Bool) (s : State) : Rp (recvProg dbg s) := by
  unfold recvProg; prog_tac [rp_recvBody _ _]
theorem rp_readTopicProg (i : PubInfo) (n : Nat) : Rp (readTopicProg i n) := by unfold readTopicProg; prog_tac [rp_recvBody _ _]
theorem rp_readPayloadProg (i : PubInfo) (n : Nat) : Rp (readPayloadProg i n) := by unfold readPayloadProg; prog_tac []
theorem rp_publishDoneProg (dbg : Bool) (i : PubInfo) : Rp (publishDoneProg dbg i) := by unfold publishDoneProg; prog_tac []
end

end Verif.Thm
