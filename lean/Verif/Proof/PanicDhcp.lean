import Verif.Proof.PanicDns
import Verif.Model.Dhcp
import Verif.Proof.History
/-!
# Panics of the DHCP client
-/
namespace Verif
open Hl
open Spec (NoPanic Device RxLimit StatusUdp PortUnique)

/-- A call of a client does not panic if `I` holds of the client; afterwards it still does and the result satisfies `Q`. -/
def Safe {σ C α : Type} (I : C → Prop) (Q : α → Prop) (m : M (σ × C) α) : Prop :=
  ∀ s c, I c → (m (s, c)).1 ≠ .error .panic ∧ ∀ a, (m (s, c)).1 = .ok a → I (m (s, c)).2.2 ∧ Q a

section
variable {σ C α β : Type} {I : C → Prop} {Q : α → Prop} {Q' : β → Prop}

theorem Safe.pure {a : α} (h : Q a) : Safe I Q (Pure.pure a : M (σ × C) α) :=
  fun _ _ hi => ⟨(fun h => nomatch h), fun _ h' => ⟨hi, by injection h' with h'; rw [← h']; exact h⟩⟩

theorem Safe.throw {e : Err} (h : e ≠ .panic) : Safe I Q (M.throw e : M (σ × C) α) :=
  fun _ _ _ => ⟨fun h' => by injection h' with h'; exact h h', (fun _ h => nomatch h)⟩

theorem Safe.bind {m : M (σ × C) α} {f : α → M (σ × C) β} (hm : Safe I Q m) (hf : ∀ a, Q a → Safe I Q' (f a)) :
    Safe I Q' (m >>= f) := by
  intro s c hi
  rw [M.bind_run]
  have h := hm s c hi
  rcases e : m (s, c) with ⟨x | a, s', c'⟩
  · rw [e] at h; exact ⟨fun h' => by injection h' with h'; exact h.1 (by rw [h']), (fun _ h => nomatch h)⟩
  · rw [e] at h; exact hf a (h.2 a rfl).2 s' c' (h.2 a rfl).1

theorem Safe.ite {c : Prop} [Decidable c] {m m' : M (σ × C) α} (h : Safe I Q m) (h' : Safe I Q m') :
    Safe I Q (if c then m else m') := by
  split <;> assumption

theorem Safe.onBus {m : M σ α} (h : FineM Q m) : Safe I Q (fun s : σ × C => ((m s.1).1, ((m s.1).2, s.2))) :=
  fun s _ hi => ⟨fun e => ((h s).1 _ e).1 rfl, fun a e => ⟨hi, (h s).2 a e⟩⟩

theorem Safe.onBus' {m : M σ α} (h : ∀ s, (m s).1 ≠ .error .panic ∧ ∀ a, (m s).1 = .ok a → Q a) :
    Safe I Q (fun s : σ × C => ((m s.1).1, ((m s.1).2, s.2))) :=
  fun s _ hi => ⟨(h s).1, fun a e => ⟨hi, (h s).2 a e⟩⟩

theorem Safe.get : Safe I I (fun s : σ × C => (Except.ok s.2, s)) :=
  fun _ _ hi => ⟨(fun h => nomatch h), fun _ e => ⟨hi, by injection e with e; rw [← e]; exact hi⟩⟩

theorem Safe.mod {f : C → C} (h : ∀ c, I c → I (f c)) :
    Safe I (fun _ => True) (fun s : σ × C => (Except.ok (), (s.1, f s.2))) :=
  fun _ c hi => ⟨(fun h => nomatch h), fun _ _ => ⟨h c hi, trivial⟩⟩

theorem Safe.ofExcept {x : Except Err α} (h : x ≠ .error .panic) (hq : ∀ a, x = .ok a → Q a) :
    Safe I Q (M.ofExcept x : M (σ × C) α) :=
  fun _ _ hi => ⟨h, fun a e => ⟨hi, hq a e⟩⟩
end

namespace Dhcp
variable {σ : Type} {b : Bus σ} {L : Nat}

theorem safe_modC {I : Client → Prop} {f : Client → Client} (h : ∀ c, I c → I (f c)) :
    Safe I (fun _ => True) (modC f : M (σ × Client) Unit) := Safe.mod h

/-- The cached locations are in the packet. -/
def CacheOk (L : Nat) (cache : Cache) : Prop := ∀ l ∈ cache, l.ptr.toNat ≤ L

theorem cacheOk_empty : CacheOk L .empty := by
  intro l hl
  unfold Cache.empty at hl
  rw [List.eq_of_mem_replicate hl]
  exact Nat.zero_le _

theorem cacheOk_insert {new : Loc} (hn : new.ptr.toNat ≤ L) : ∀ {cache : Cache}, CacheOk L cache → CacheOk L (cache.insert new) := by
  intro cache
  induction cache with
  | nil => exact fun h => h
  | cons l ls ih =>
    intro h
    unfold Cache.insert
    split
    · intro x hx
      rcases List.mem_cons.1 hx with rfl | hx
      · exact hn
      · exact h x (List.mem_cons_of_mem _ hx)
    · intro x hx
      rcases List.mem_cons.1 hx with rfl | hx
      · exact h x (List.mem_cons_self ..)
      · exact ih (fun y hy => h y (List.mem_cons_of_mem _ hy)) x hx

theorem cacheFind_ok (option : UInt8) (hL : L ≤ 16384) : ∀ {cache : Cache} (start : UInt16), CacheOk L cache →
    ∃ r, cacheFind option cache start = .ok r := by
  intro cache
  induction cache with
  | nil => exact fun _ _ => ⟨_, rfl⟩
  | cons l ls ih =>
    intro start h
    unfold cacheFind
    have h1 := h l (List.mem_cons_self ..)
    have h2 : l.len.toNat < 256 := UInt8.toNat_lt l.len
    split
    · split
      · exact ⟨_, rfl⟩
      · rw [if_pos (by omega)]
        exact ih _ (fun y hy => h y (List.mem_cons_of_mem _ hy))
    · exact ⟨_, rfl⟩

/-- The result of a program that looks for an option. -/
abbrev CQ (L : Nat) {α : Type} (r : α × Cache) (q : Nat) : Prop := CacheOk L r.2 ∧ q ≤ L

/-- A program that looks for an option does not panic. -/
abbrev CT (L : Nat) {α : Type} (prog : Cache → RProg (α × Cache)) : Prop :=
  ∀ cache p, CacheOk L cache → p ≤ L → RSafe L (CQ L) (prog cache) p

theorem ofNat_toNat_le {p : Nat} (h : p ≤ L) : (UInt16.ofNat p).toNat ≤ L := by
  rw [UInt16.toNat_ofNat']; have := Nat.mod_le p (2 ^ 16); omega

theorem ct_seekLoop (option : UInt8) (fuel : Nat) : CT L (seekLoop option fuel) := by
  induction fuel with
  | zero => exact fun _ _ _ _ => ⟨by nofun, by nofun⟩
  | succ n ih =>
    intro cache p hc hp
    unfold seekLoop
    refine RSafe.bind (Q := fun x q => q ≤ L) ?_ _ p (RSafe.doRead fun x hx => by omega)
    intro x q hq
    split
    · split
      · exact ⟨hc, hq⟩
      · split
        · split
          · exact ih _ _ hc hq
          · exact RSafe.bind (Q := fun _ q => q ≤ L) (fun _ q h => ih _ q hc h) _ _ (RSafe.doSeek fun _ h _ => h)
        · split
          · refine RSafe.bind (Q := fun pos q => pos.toNat ≤ L ∧ q ≤ L) (fun pos q h => ?_) _ _
              (RSafe.doStreamPosition ⟨ofNat_toNat_le hq, hq⟩)
            exact ⟨cacheOk_insert h.1 hc, h.2⟩
          · refine RSafe.bind (Q := fun pos q => pos.toNat ≤ L ∧ q ≤ L) (fun pos q h => ?_) _ _
              (RSafe.doStreamPosition ⟨ofNat_toNat_le hq, hq⟩)
            exact RSafe.bind (Q := fun _ q => q ≤ L) (fun _ q h' => ih _ q (cacheOk_insert h.1 hc) h') _ _
              (RSafe.doSeek fun _ h _ => h)
    · exact ⟨hc, hq⟩

theorem ct_seekToOption (hL : L ≤ 16384) (option : UInt8) : CT L (seekToOption option) := by
  intro cache p hc hp
  unfold seekToOption
  obtain ⟨r, hr⟩ := cacheFind_ok option hL 240 hc
  rw [hr]
  rcases r with start | l
  · exact RSafe.bind (Q := fun _ q => q ≤ L) (fun _ q h => ct_seekLoop option _ _ q hc h) _ _ (RSafe.doSeek fun _ h _ => h)
  · exact RSafe.bind (Q := fun _ q => q ≤ L) (fun _ q h => by exact ⟨hc, h⟩) _ _ (RSafe.doSeek fun _ h _ => h)

theorem ct_map {α β : Type} {prog : Cache → RProg (α × Cache)} (h : CT L prog) (f : α → β) :
    CT L (fun cache => prog cache >>= fun r => pure (f r.1, r.2)) :=
  fun cache p hc hp => RSafe.bind (fun _ _ hr => hr) _ p (h cache p hc hp)

theorem ct_findOptionFixedSize (hL : L ≤ 16384) (n : Nat) (option : UInt8) : CT L (findOptionFixedSize n option) := by
  intro cache p hc hp
  unfold findOptionFixedSize
  refine RSafe.bind (fun r q hr => ?_) _ p (ct_seekToOption hL option cache p hc hp)
  split
  · exact hr
  · split
    · exact hr
    · exact RSafe.bind (Q := fun _ q => q ≤ L) (fun _ _ h => by exact ⟨hr.1, h⟩) _ _ (RSafe.doReadExact fun _ _ h => h)

theorem ct_findOptionU32 (hL : L ≤ 16384) (option : UInt8) : CT L (findOptionU32 option) :=
  ct_map (ct_findOptionFixedSize hL 4 option) fun x => x.map fun x => quadU32 (quad x)
theorem ct_findOptionIpv4 (hL : L ≤ 16384) (option : UInt8) : CT L (findOptionIpv4 option) :=
  ct_map (ct_findOptionFixedSize hL 4 option) fun x => x.map quad

theorem ct_findOptionIpv4List (hL : L ≤ 16384) (option : UInt8) : CT L (findOptionIpv4List option) := by
  intro cache p hc hp
  unfold findOptionIpv4List
  refine RSafe.bind (fun r q hr => ?_) _ p (ct_seekToOption hL option cache p hc hp)
  split
  · exact hr
  · split
    · exact hr
    · exact RSafe.bind (Q := fun _ q => q ≤ L) (fun _ _ h => by exact ⟨hr.1, h⟩) _ _ (RSafe.doReadExact fun _ _ h => h)

theorem ct_msgType (hL : L ≤ 16384) : CT L msgType :=
  fun cache p hc hp => RSafe.bind (fun _ _ hr => hr) _ p (ct_findOptionFixedSize hL 1 optMessageType cache p hc hp)

theorem rsafe_ackProg (hL : L ≤ 16384) {cache : Cache} (hc : CacheOk L cache) {p : Nat} (hp : p ≤ L) :
    RSafe L (fun _ q => q ≤ L) (ackProg cache) p := by
  unfold ackProg ackOptsProg ackTimesProg
  refine RSafe.bind (Q := CQ L) (fun r q hr => ?_) _ p ?_
  · refine RSafe.bind (fun l q hl => ?_) _ q (ct_findOptionU32 hL _ _ q hr.1 hr.2)
    dsimp only
    split
    · exact hl.2
    · refine RSafe.bind (Q := fun _ q => q ≤ L) (fun _ _ h => by exact h) _ q ?_
      refine RSafe.bind (fun _ q h => ?_) _ q (ct_findOptionU32 hL _ _ q hl.1 hl.2)
      exact RSafe.bind (fun _ q h => by exact h.2) _ q (ct_findOptionU32 hL _ _ q h.1 h.2)
  · refine RSafe.bind (fun _ q h => ?_) _ p (ct_findOptionIpv4 hL _ _ p hc hp)
    refine RSafe.bind (fun _ q h => ?_) _ q (ct_findOptionIpv4List hL _ _ q h.1 h.2)
    refine RSafe.bind (fun _ q h => ?_) _ q (ct_findOptionIpv4List hL _ _ q h.1 h.2)
    exact RSafe.bind (fun _ q h => by exact h) _ q (ct_findOptionIpv4List hL _ _ q h.1 h.2)

theorem rsafe_pktYiaddr (p : Nat) : RSafe L (fun _ q => q ≤ L) pktYiaddr p := by
  unfold pktYiaddr
  refine RSafe.bind (Q := fun _ q => q ≤ L) (fun _ q h => ?_) _ _ (RSafe.doSeek fun _ h _ => h)
  exact RSafe.bind (Q := fun _ q => q ≤ L) (fun _ q h => by exact h) _ _ (RSafe.doReadExact fun _ _ h => h)

theorem rsafe_checkProg (xid : UInt32) : Dns.RT L (checkProg xid) := by
  unfold checkProg isBootreply pktXid
  refine Dns.RT.bind (Dns.RT.bind (Dns.RT.seek _) fun _ => Dns.RT.bind (Dns.RT.readExact _) fun _ => Dns.RT.pure _) fun bad => ?_
  split
  · exact Dns.RT.pure _
  · exact Dns.RT.bind (Dns.RT.bind (Dns.RT.seek _) fun _ => Dns.RT.bind (Dns.RT.readExact _) fun _ => Dns.RT.pure _) fun _ =>
      Dns.RT.pure _

/-- Prove that a packet is written without a panic. -/
macro "wsafe_tac" : tactic => `(tactic|
  repeat (first
    | exact WSafe.pure _
    | exact WSafe.doWriteAll _
    | exact WSafe.doSeek _
    | (refine WSafe.bind (fun _ => ?_) _ ?_)))

theorem wsafe_prepareMessage (mac : Eui48) (xid : UInt32) : WSafe (prepareMessage mac xid) := by
  unfold prepareMessage setChaddr setFileZero setAt; wsafe_tac
theorem wsafe_dhcpDiscover (mac : Eui48) (hostname : Bytes) (xid : UInt32) : WSafe (dhcpDiscover mac hostname xid) := by
  have := wsafe_prepareMessage mac xid
  unfold dhcpDiscover setOptionMsgType setOptionClientId setOptionHostname setOptionEnd
  refine WSafe.bind (fun _ => ?_) _ this
  wsafe_tac
theorem wsafe_dhcpRequest (mac : Eui48) (ip : Ipv4) (hostname : Bytes) (sid : Option Ipv4) (xid : UInt32) :
    WSafe (dhcpRequest mac ip hostname sid xid) := by
  have := wsafe_prepareMessage mac xid
  unfold dhcpRequest setOptionMsgType setOptionClientId setOptionHostname setOptionEnd setOptionParameterRequest
    setOptionRequestedIp setOptionServerIdOpt setOptionServerId
  refine WSafe.bind (fun _ => ?_) _ this
  cases sid <;> wsafe_tac

section
variable (hb : Device b)
include hb

theorem fine_setupSocket {dbg : Bool} (fuel : Nat) (c : Client) (hp : dbg = true → PortUnique b c.sn c.srcPort) :
    Ok (setupSocket dbg fuel b c) := by
  unfold setupSocket
  refine FineM.bind (fine_simr hb) fun _ _ => FineM.bind (fine_setSimr hb _) fun _ _ => FineM.bind (fine_setSnImr hb _ _) fun _ _ =>
    FineM.bind (fine_close hb _) fun _ _ => FineM.bind (fine_setSipr hb _) fun _ _ => fine_udpBind hb fuel hp

theorem fine_sendDhcpRequest (sn : Sn) (mac : Eui48) (ip : Ipv4) (hostname : Bytes) (sid : Option Ipv4) (xid : UInt32) :
    Ok (sendDhcpRequest b sn mac ip hostname sid xid) := by
  unfold sendDhcpRequest
  exact FineM.bind (fine_socketWriter hb _) fun r _ =>
    FineM.bind (fine_onWriter hb r (wsafe_dhcpRequest mac ip hostname sid xid)) fun _ _ => fine_writerSend hb _

theorem fine_sendDhcpDiscover {dbg : Bool} {sn : Sn} (hs : dbg = true → StatusUdp b sn) (mac : Eui48) (hostname : Bytes)
    (xid : UInt32) (addr : SockAddr) : Ok (sendDhcpDiscover dbg b sn mac hostname xid addr) := by
  unfold sendDhcpDiscover
  refine FineM.bind (Q := fun r => r.sn = sn) (fun s => ⟨(fine_socketWriter hb sn s).1, fun r hr => ?_⟩) fun r hr => ?_
  · unfold socketWriter at hr
    rw [M.bind_run] at hr
    rcases e : b.snTxPtrs sn s with ⟨x | x, s'⟩
    · rw [e] at hr; exact nomatch hr
    · rw [e] at hr; injection hr with hr; rw [← hr]
  · refine FineM.bind (Q := fun x => x.2.sn = sn) (fun s => ⟨(fine_onWriter hb r (wsafe_dhcpDiscover mac hostname xid) s).1,
      fun x hx => ?_⟩) fun x hx => ?_
    · have h := wprog_sn (b := b) (dhcpDiscover mac hostname xid) s r
      unfold onWriter at hx
      rcases e : (dhcpDiscover mac hostname xid).run (writerOps b) (s, r) with ⟨y | y, s', r'⟩
      · rw [e] at hx; exact nomatch hx
      · rw [e] at hx h; injection hx with hx; rw [← hx]; exact h.trans hr
    · exact fine_udpWriterSendTo hb addr (by rw [hx]; exact hs)

theorem fine_clearIr (sn : Sn) : Ok (clearIr b sn) := by
  have := fine_snIr hb; have := fine_setSnIr hb
  unfold clearIr; fine_tac
theorem fine_linkDown (c : Client) : Ok (linkDown b c) := by
  have := fine_phycfgr hb
  unfold linkDown; fine_tac

/-- The packet received, if there is one. -/
theorem recv_at {dbg : Bool} {sn : Sn} (hr : RxLimit b sn) (hs : dbg = true → StatusUdp b sn) (xid : UInt32) (s : σ) :
    (recv dbg b sn xid s).1 ≠ .error .panic ∧
      ∀ x, (recv dbg b sn xid s).1 = .ok x → ∀ u, x = some u → ∃ L p, L ≤ 16384 ∧ At u.inner L p := by
  unfold recv
  have h1 := udpReader_at hb hs s
  rcases e : udpReader dbg b sn s with ⟨x | u, s'⟩
  · rw [e] at h1
    cases x <;> first
      | exact (h1.1 rfl).elim
      | exact ⟨by nofun, fun x h u hu => by injection h with h; rw [← h] at hu; injection hu⟩
      | exact ⟨by nofun, by nofun⟩
  · rw [e] at h1
    obtain ⟨L, hL, s1, n, hn, hLn⟩ := h1.2 u rfl
    have hL' : L ≤ 16384 := Nat.le_trans hLn (hr s1 n hn)
    dsimp only
    unfold recvCheck
    split
    · exact ⟨(fun h => nomatch h), fun x h u hu => by injection h with h; rw [← h] at hu; exact nomatch hu⟩
    · rw [M.bind_run]
      have h2 := fine_onUdpReader hb hL (rsafe_checkProg (L := L) xid 0) s'
      rcases e2 : onUdpReader b u (checkProg xid) s' with ⟨x | r, s2⟩
      · rw [e2] at h2; exact ⟨fun h => by injection h with h; exact (h2.1 x rfl).1 h, (fun _ h => nomatch h)⟩
      · rw [e2] at h2
        obtain ⟨q, -, hq⟩ := h2.2 r rfl
        refine ⟨(fun h => nomatch h), fun x h u hu => ?_⟩
        injection h with h
        rw [← h] at hu
        split at hu
        · injection hu with hu; rw [← hu]; exact ⟨L, q, hL', hq⟩
        · exact nomatch hu

/-- What is true of the client during a call: it keeps its socket and port, and its clock did not go backwards. -/
def Inv (dbg : Bool) (sn : Sn) (port : UInt16) (secs : UInt32) (c : Client) : Prop :=
  c.sn = sn ∧ c.srcPort = port ∧ (dbg = true → ∀ t, c.stateTimeout = some t → t ≤ secs)

variable {dbg : Bool} {sn : Sn} {port : UInt16} {secs : UInt32} (hs : dbg = true → StatusUdp b sn) (hp : dbg = true → PortUnique b sn port)
local notation "Inv'" => Inv dbg sn port secs

omit hb in
theorem nextCall_ok {c : Client} (hi : Inv dbg sn port secs c) : c.nextCall dbg secs ≠ .error .panic ∧ c.timeoutElapsed dbg secs ≠ .error .panic := by
  have : c.timeoutElapsed dbg secs ≠ .error .panic := by
    unfold Client.timeoutElapsed
    split
    · exact fun h => nomatch h
    · rename_i t ht
      rw [if_neg]
      · exact fun h => nomatch h
      · intro ⟨hd, hlt⟩
        have := hi.2.2 hd t ht
        rw [UInt32.lt_iff_toNat_lt] at hlt
        rw [UInt32.le_iff_toNat_le] at this
        omega
  refine ⟨?_, this⟩
  unfold Client.nextCall
  split
  · rename_i e he; intro h; injection h with h; rw [h] at he; exact this he
  · exact fun h => nomatch h
  · exact fun h => nomatch h

include hs hp in
theorem safe_discover (fuel : Nat) : Safe Inv' (fun _ => True) (discover dbg fuel b secs) := by
  unfold discover
  refine Safe.bind (safe_modC fun c hi => ⟨hi.1, hi.2.1, hi.2.2⟩) fun _ _ => ?_
  refine Safe.bind Safe.get fun c hc => ?_
  refine Safe.bind (Safe.onBus (fine_setSipr hb _)) fun _ _ => ?_
  refine Safe.bind (Safe.onBus (fine_udpBind hb fuel (by rw [hc.1, hc.2.1]; exact hp))) fun _ _ => ?_
  refine Safe.bind (Safe.onBus (fine_sendDhcpDiscover hb (by rw [hc.1]; exact hs) _ _ _ _)) fun _ _ => ?_
  exact safe_modC fun c hi => ⟨hi.1, hi.2.1, fun _ t ht => by injection ht with ht; rw [ht]; exact UInt32.le_refl _⟩

theorem safe_request : Safe Inv' (fun _ => True) (request b) := by
  unfold request
  refine Safe.bind (safe_modC fun c hi => ⟨hi.1, hi.2.1, hi.2.2⟩) fun _ _ => ?_
  refine Safe.bind Safe.get fun c hc => ?_
  exact Safe.onBus (fine_sendDhcpRequest hb _ _ _ _ _ _)

theorem safe_onOffer (hL : L ≤ 16384) {u : UdpReader} {p : Nat} (ha : At u.inner L p) :
    Safe Inv' (fun _ => True) (onOffer b secs u) := by
  unfold onOffer
  refine Safe.bind (Safe.onBus (fine_onUdpReader hb ha (rsafe_pktYiaddr p))) fun r1 ⟨q, hq, ha1⟩ => ?_
  refine Safe.bind (safe_modC fun c hi => ⟨hi.1, hi.2.1, hi.2.2⟩) fun _ _ => ?_
  refine Safe.bind (Safe.onBus (fine_onUdpReader hb ha1 (ct_findOptionIpv4List hL _ .empty q cacheOk_empty hq))) fun r2 _ => ?_
  refine Safe.bind (safe_modC fun c hi => ⟨hi.1, hi.2.1, hi.2.2⟩) fun _ _ => ?_
  refine Safe.bind (Safe.onBus (fine_udpReaderDone hb _)) fun _ _ => ?_
  refine Safe.bind (safe_request hb) fun _ _ => ?_
  exact safe_modC fun c hi => ⟨hi.1, hi.2.1, fun _ t ht => by injection ht with ht; rw [ht]; exact UInt32.le_refl _⟩

omit hb in
theorem safe_nextCall {c : Client} (hc : Inv dbg sn port secs c) :
    Safe Inv' (fun _ => True) (M.ofExcept ((c.nextCall dbg secs).map some) : M (σ × Client) _) := by
  refine Safe.ofExcept ?_ fun _ _ => trivial
  have := (nextCall_ok hc).1
  rcases e : c.nextCall dbg secs with x | x
  · rw [e] at this; intro h; injection h with h; exact this (by rw [h])
  · exact fun h => nomatch h

theorem safe_ackBound (o : AckOpts) : Safe Inv' (fun _ => True) (ackBound b o) := by
  unfold ackBound
  refine Safe.bind Safe.get fun c hc => ?_
  refine Safe.bind (Q := fun _ => True) (Safe.ite (Safe.onBus (fine_setSipr hb _)) (Safe.pure trivial)) fun _ _ => ?_
  refine Safe.bind (safe_modC fun c hi => ⟨hi.1, hi.2.1, hi.2.2⟩) fun _ _ => ?_
  exact safe_modC fun c hi => ⟨hi.1, hi.2.1, (fun _ _ h => nomatch h)⟩

theorem safe_ackGateway (o : AckOpts) : Safe Inv' (fun _ => True) (ackGateway dbg b secs o) := by
  unfold ackGateway
  refine Safe.bind Safe.get fun c hc => ?_
  split
  · exact Safe.bind (Safe.onBus (fine_setGar hb _)) fun _ _ => Safe.bind (safe_ackBound hb o) fun _ _ => Safe.pure trivial
  · exact Safe.ite (Safe.bind (safe_ackBound hb o) fun _ _ => Safe.pure trivial) (safe_nextCall hc)

theorem safe_ackMask (o : AckOpts) : Safe Inv' (fun _ => True) (ackMask dbg b secs o) := by
  unfold ackMask
  refine Safe.bind Safe.get fun c hc => ?_
  split
  · exact Safe.bind (Safe.onBus (fine_setSubr hb _)) fun _ _ => safe_ackGateway hb o
  · exact Safe.ite (safe_ackGateway hb o) (safe_nextCall hc)

theorem safe_onAck (hL : L ≤ 16384) {u : UdpReader} {p : Nat} (ha : At u.inner L p) {cache : Cache} (hc : CacheOk L cache) :
    Safe Inv' (fun _ => True) (onAck dbg b secs u cache) := by
  unfold onAck
  refine Safe.bind (Safe.onBus (fine_onUdpReader hb ha (rsafe_ackProg hL hc ha.2.2))) fun r _ => ?_
  split
  · exact Safe.bind Safe.get fun c hc => safe_nextCall hc
  · refine Safe.bind (safe_modC fun c hi => ⟨hi.1, hi.2.1, hi.2.2⟩) fun _ _ => ?_
    exact Safe.bind (Safe.onBus (fine_udpReaderDone hb _)) fun _ _ => safe_ackMask hb _

include hs hp in
theorem safe_handle (fuel : Nat) (hL : L ≤ 16384) {u : UdpReader} {p : Nat} (ha : At u.inner L p) :
    Safe Inv' (fun _ => True) (handle dbg fuel b secs u) := by
  have hr : Safe Inv' (fun _ => True) (onReply dbg fuel b secs u) := by
    unfold onReply
    refine Safe.bind (Safe.onBus (fine_onUdpReader hb ha (ct_msgType hL .empty p cacheOk_empty ha.2.2))) fun r ⟨q, hq, har⟩ => ?_
    split
    · exact safe_onAck hb hL har hq.1
    · exact Safe.bind (Safe.onBus (fine_udpReaderDone hb _)) fun _ _ =>
        Safe.bind (safe_discover hb hs hp fuel) fun _ _ => Safe.pure trivial
    · exact Safe.bind (Safe.onBus (fine_udpReaderDone hb _)) fun _ _ => Safe.pure trivial
  unfold handle
  refine Safe.bind Safe.get fun c hc => ?_
  split
  · exact Safe.bind (safe_onOffer hb hL ha) fun _ _ => Safe.pure trivial
  · exact hr
  · exact hr
  · exact hr
  · exact Safe.bind (Safe.onBus (fine_udpReaderDone hb _)) fun _ _ => Safe.pure trivial

include hs hp in
theorem safe_packets (hrx : RxLimit b sn) (fuel n : Nat) : Safe Inv' (fun _ => True) (packets dbg fuel b secs n) := by
  induction n with
  | zero => exact Safe.throw (by nofun)
  | succ n ih =>
    unfold packets
    refine Safe.bind Safe.get fun c hc => ?_
    refine Safe.bind (Safe.onBus' (recv_at hb (by rw [hc.1]; exact hrx) (by rw [hc.1]; exact hs) c.xid)) fun r hr => ?_
    split
    · exact Safe.pure trivial
    · obtain ⟨L, p, hL, ha⟩ := hr _ rfl
      refine Safe.bind (safe_handle hb hs hp fuel hL ha) fun x _ => ?_
      split
      · exact Safe.pure trivial
      · exact ih

include hs hp in
theorem safe_timers (fuel : Nat) : Safe Inv' (fun _ => True) (timers dbg fuel b secs) := by
  have hl : Safe Inv' (fun _ => True) (leaseTimers dbg fuel b secs) := by
    unfold leaseTimers
    refine Safe.bind Safe.get fun c hc => ?_
    dsimp only
    refine Safe.ite (safe_discover hb hs hp fuel) (Safe.ite ?_ (Safe.ite ?_ (Safe.pure trivial))) <;>
    exact Safe.bind (safe_request hb) fun _ _ => safe_modC fun c hi => ⟨hi.1, hi.2.1, (fun _ _ h => nomatch h)⟩
  unfold timers
  refine Safe.bind Safe.get fun c hc => ?_
  refine Safe.bind (Safe.ofExcept (nextCall_ok hc).2 fun _ _ => trivial) fun e _ => ?_
  split
  · exact Safe.ite (safe_discover hb hs hp fuel) (Safe.pure trivial)
  · split
    · exact safe_discover hb hs hp fuel
    · exact Safe.pure trivial
    · exact Safe.pure trivial
    · exact hl

include hs hp in
theorem safe_process (hrx : RxLimit b sn) (fuel n : Nat) : Safe Inv' (fun _ => True) (process dbg fuel n b secs) := by
  unfold process
  refine Safe.bind Safe.get fun c hc => ?_
  refine Safe.bind (Safe.onBus (fine_clearIr hb _)) fun _ _ => ?_
  refine Safe.bind (Safe.onBus (fine_linkDown hb _)) fun down _ => ?_
  refine Safe.ite (Safe.pure trivial) ?_
  refine Safe.bind (safe_packets hb hs hp hrx fuel n) fun r _ => ?_
  split
  · exact Safe.pure trivial
  · refine Safe.bind (safe_timers hb hs hp fuel) fun _ _ => Safe.bind Safe.get fun c hc => ?_
    exact Safe.ofExcept (nextCall_ok hc).1 fun _ _ => trivial

end
end Dhcp
end Verif
