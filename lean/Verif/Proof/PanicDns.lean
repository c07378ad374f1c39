import Verif.Proof.Panic
import Verif.Model.Dns
import Verif.Model.Sntp
/-!
# Panics of the DNS and SNTP clients
-/
namespace Verif
open Hl
open Spec (NoPanic Device StatusUdp PortUnique)

namespace Dns
variable {σ : Type} {b : Bus σ} {L : Nat}

/-- Nothing is said about the result. -/
abbrev RT (L : Nat) {α : Type} (prog : RProg α) : Prop := ∀ p, RSafe L (fun _ _ => True) prog p

theorem RT.bind {α β : Type} {m : RProg α} {f : α → RProg β} (hm : RT L m) (hf : ∀ a, RT L (f a)) : RT L (m >>= f) :=
  fun p => RSafe.bind (fun a q _ => hf a q) m p (hm p)
theorem RT.pure {α : Type} (a : α) : RT L (Pure.pure a : RProg α) := fun _ => trivial
theorem RT.seek (pos : SeekFrom) : RT L (RProg.doSeek pos) := fun _ => RSafe.doSeek fun _ _ _ => trivial
theorem RT.position : RT L RProg.doStreamPosition := fun _ => trivial
theorem RT.read (n : Nat) : RT L (RProg.doRead n) := fun _ => RSafe.doRead fun _ _ => trivial
theorem RT.readExact (n : Nat) : RT L (RProg.doReadExact n) := fun _ => RSafe.doReadExact fun _ _ _ => trivial

theorem rt_labelsDone (cap idx : Nat) (buf : Bytes) (seekTo : UInt16) : RT L (labelsDone cap idx buf seekTo) := by
  unfold labelsDone
  refine RT.bind ?_ (fun _ => RT.pure _)
  split
  · exact RT.seek _
  · exact RT.pure _

theorem rt_labelStep (cap idx : Nat) (buf : Bytes) (seekTo : UInt16) (b0 : UInt8) {k : Nat → Bytes → RProg (Option Bytes)}
    (hk : ∀ i x, RT L (k i x)) : RT L (labelStep cap idx buf seekTo b0 k) := by
  unfold labelStep
  refine RT.bind (RT.seek _) (fun _ => ?_)
  dsimp only
  split
  · exact rt_labelsDone _ _ _ _
  · split
    · exact RT.bind (RT.readExact _) (fun _ => hk _ _)
    · exact RT.bind (RT.seek _) (fun _ => hk _ _)

theorem rt_readLabelsLoop (cap fuel : Nat) : ∀ idx buf seekTo, RT L (readLabelsLoop cap fuel idx buf seekTo) := by
  induction fuel with
  | zero => exact fun _ _ _ _ => ⟨by nofun, by nofun⟩
  | succ n ih =>
    intro idx buf seekTo
    unfold readLabelsLoop
    refine RT.bind (RT.read 2) (fun x => ?_)
    split
    · exact fun _ => ⟨by nofun, by nofun⟩
    · exact rt_labelStep _ _ _ _ _ (fun i x => ih i x seekTo)
    · split
      · exact RT.bind RT.position fun _ => RT.bind (RT.seek _) fun _ => ih _ _ _
      · exact rt_labelStep _ _ _ _ _ (fun i x => ih i x seekTo)

theorem rt_readU16 : RT L readU16 := by
  intro p
  unfold readU16
  refine RSafe.bind (Q := fun x _ => x.length = 2) ?_ _ p (RSafe.doReadExact fun x hx _ => hx)
  intro x q hx
  match x, hx with
  | [_, _], _ => trivial

theorem rt_readU32 : RT L readU32 := by
  intro p
  unfold readU32
  refine RSafe.bind (Q := fun x _ => x.length = 4) ?_ _ p (RSafe.doReadExact fun x hx _ => hx)
  intro x q hx
  match x, hx with
  | [_, _, _, _], _ => trivial

theorem rt_readRData (t : Except UInt16 Qtype) : RT L (readRData t) := by
  unfold readRData
  split
  · intro p
    refine RSafe.bind (Q := fun x _ => x.length = 4) ?_ _ p (RSafe.doReadExact fun x hx _ => hx)
    intro x q hx
    match x, hx with
    | [_, _, _, _], _ => trivial
  · exact RT.bind rt_readU16 fun _ => RT.bind rt_readU16 fun _ => RT.bind rt_readU16 fun _ => RT.pure _
  · exact RT.pure _

theorem rt_readRr (fuel cap : Nat) : RT L (readRr fuel cap) := by
  unfold readRr
  refine RT.bind (rt_readLabelsLoop _ _ _ _ _) fun _ => RT.bind rt_readU16 fun _ => RT.bind rt_readU16 fun _ =>
    RT.bind rt_readU32 fun _ => RT.bind rt_readU16 fun _ => RT.bind RT.position fun _ => RT.bind (rt_readRData _) fun _ =>
    RT.bind ?_ fun _ => RT.pure _
  unfold skipRData
  split
  · exact RT.seek _
  · exact RT.pure _

theorem rt_skipQuestions (fuel n : Nat) : RT L (skipQuestions fuel n) := by
  induction n with
  | zero => exact RT.pure _
  | succ n ih =>
    unfold skipQuestions
    exact RT.bind (rt_readLabelsLoop _ _ _ _ _) fun _ => RT.bind (RT.seek _) fun _ => ih

theorem rt_responseProg (fuel : Nat) (id : Option UInt16) : RT L (responseProg fuel id) := by
  unfold responseProg
  refine RT.bind (RT.read 12) fun x => ?_
  dsimp only
  split
  · exact RT.pure _
  · split
    · exact RT.pure _
    · split
      · exact RT.pure _
      · exact RT.bind (rt_skipQuestions _ _) fun _ => RT.pure _

theorem response_safe (hb : Device b) {dbg : Bool} {sn : Sn} (hs : dbg = true → StatusUdp b sn) (fuel cap : Nat) (id : Option UInt16)
    (s : σ) : (response dbg fuel b sn cap id s).1 ≠ .error .panic ∧
      ∀ r, (response dbg fuel b sn cap id s).1 = .ok r → ∃ L p, At r.reader.inner L p := by
  unfold response
  rw [M.bind_run]
  have h1 := udpReader_at hb hs s
  rcases e : udpReader dbg b sn s with ⟨x | u, s'⟩
  · rw [e] at h1; exact ⟨fun h => by injection h with h; exact h1.1 (by rw [h]), (fun _ h => nomatch h)⟩
  · rw [e] at h1
    obtain ⟨L, hL, -⟩ := h1.2 u rfl
    dsimp only
    rw [M.bind_run]
    have h2 := fine_onUdpReader hb hL (rt_responseProg (L := L) fuel id 0) s'
    rcases e2 : onUdpReader b u (responseProg fuel id) s' with ⟨x | ⟨h, u'⟩, s2⟩
    · rw [e2] at h2; exact ⟨fun h => by injection h with h; exact (h2.1 x rfl).1 h, (fun _ h => nomatch h)⟩
    · rw [e2] at h2
      obtain ⟨q, -, hq⟩ := h2.2 _ rfl
      rcases h with _ | h
      · dsimp only
        rw [M.bind_run]
        have h3 := fine_udpReaderDone hb u' s2
        rcases e3 : udpReaderDone b u' s2 with ⟨x | x, s3⟩
        · rw [e3] at h3; exact ⟨fun h => by injection h with h; exact (h3.1 x rfl).1 h, (fun _ h => nomatch h)⟩
        · exact ⟨(fun h => nomatch h), (fun _ h => nomatch h)⟩
      · exact ⟨(fun h => nomatch h), fun r hr => by injection hr with hr; rw [← hr]; exact ⟨L, q, hq⟩⟩

theorem nextRr_safe (hb : Device b) (fuel : Nat) {r : Response} {p : Nat} (ha : At r.reader.inner L p) (s : σ) :
    (nextRr fuel b (s, r)).1 ≠ .error .panic ∧ ∃ q, At (nextRr fuel b (s, r)).2.2.reader.inner L q := by
  unfold nextRr
  dsimp only
  split
  · exact ⟨(fun h => nomatch h), p, ha⟩
  · have h := rsafe_run hb (readRr fuel r.cap) s r.reader.inner p ha (rt_readRr fuel r.cap p)
    rw [udpReader_run_any]
    rcases e : (readRr fuel r.cap).run (tcpReaderOps b) (s, r.reader.inner) with ⟨x | x, s', r'⟩
    · rw [e] at h
      exact ⟨fun h' => by injection h' with h'; exact (h.1 x rfl).1.1 h', (h.1 x rfl).2⟩
    · rw [e] at h
      obtain ⟨q, -, hq⟩ := h.2 x rfl
      exact ⟨(fun h => nomatch h), q, hq⟩

theorem wsafe_questions (qs : List (Qtype × Bytes)) : ∀ h, WSafe (questions h qs) := by
  have hl : ∀ ls, WSafe (writeLabels ls) := by
    intro ls
    induction ls with
    | nil => exact WSafe.pure _
    | cons l ls ih => exact WSafe.bind (fun _ => WSafe.bind (fun _ => ih) _ (WSafe.doWriteAll _)) _ (WSafe.doWriteAll _)
  induction qs with
  | nil => exact fun h => WSafe.pure _
  | cons q qs ih =>
    intro h
    refine WSafe.bind (fun _ => ih _) _ ?_
    unfold question
    refine WSafe.bind (fun r => ?_) _ WSafe.doRemain
    split
    · exact WSafe.throw ⟨by nofun, by nofun⟩
    · exact WSafe.bind (fun _ => WSafe.bind (fun _ => WSafe.pure _) _ (WSafe.doWriteAll _)) _ (hl _)

theorem wsafe_queryProg (id : UInt16) (qs : List (Qtype × Bytes)) : WSafe (queryProg id qs) := by
  unfold queryProg placeHeader
  refine WSafe.bind (fun _ => WSafe.bind (fun h => ?_) _ (wsafe_questions _ _)) _ (WSafe.doSeek _)
  split
  · exact WSafe.pure _
  · exact WSafe.bind (fun _ => WSafe.pure _) _ (WSafe.bind (fun _ => WSafe.bind (fun _ =>
      WSafe.bind (fun _ => WSafe.doSeek _) _ (WSafe.doWriteAll _)) _ WSafe.doRewind) _ WSafe.doStreamPosition)

theorem fine_sendQuery (hb : Device b) (r : Ptrs) (h : Header) : Ok (sendQuery b r h) := by
  have := fine_writerSend hb; unfold sendQuery; fine_tac

theorem fine_query (hb : Device b) {dbg : Bool} (fuel : Nat) (c : Client) (qs : List (Qtype × Bytes))
    (hp : dbg = true → PortUnique b c.sn c.port) : Ok (query dbg fuel b c qs) := by
  have := fine_udpBind hb fuel hp; have := fine_setSnDest hb; have := fine_socketWriter hb; have := fine_sendQuery hb
  have := fun r => fine_onWriter hb r (wsafe_queryProg c.rng.nextU16.1 qs)
  unfold query; fine_tac

theorem fine_mdnsQuery (hb : Device b) (fuel : Nat) (c : MdnsClient) (qs : List (Qtype × Bytes)) : Ok (mdnsQuery fuel b c qs) := by
  have := fine_setSnDhar hb; have := fine_setSnTtl hb; have := fine_setSnCr hb; have := fine_waitStatus hb
  have := fine_setSnPort hb; have := fine_setSnMr hb
  have := fine_setSnDest hb; have := fine_socketWriter hb; have := fine_sendQuery hb
  have := fun r => fine_onWriter hb r (wsafe_queryProg 0 qs)
  unfold mdnsQuery; fine_tac
end Dns

namespace Sntp
variable {σ : Type} {b : Bus σ} (hb : Device b)
include hb

theorem fine_setupSocket {dbg : Bool} (fuel : Nat) (c : Client) (hp : dbg = true → PortUnique b c.sn c.port) :
    Ok (setupSocket dbg fuel b c) := by
  have := fine_simr hb; have := fine_setSimr hb; have := fine_setSnImr hb; have := fine_close hb
  have := fine_udpBind hb fuel hp; have := fine_setSnDest hb
  unfold setupSocket; fine_tac

theorem fine_request (c : Client) : Ok (request b c) := by
  have := fine_socketWriter hb; have := fine_writerSend hb
  have := fun r => fine_onWriter hb r (WSafe.doWriteAll requestPkt)
  unfold request; fine_tac

theorem fine_clearIr (sn : Sn) : Ok (clearIr b sn) := by
  have := fine_snIr hb; have := fine_setSnIr hb
  unfold clearIr; fine_tac

theorem onRecvInterrupt_safe {dbg : Bool} (c : Client) (hs : dbg = true → StatusUdp b c.sn) :
    NoPanic (onRecvInterrupt dbg b c) := by
  unfold onRecvInterrupt
  refine NoPanic.bind (fine_clearIr hb c.sn).noPanic fun _ => ?_
  refine NoPanic.bindQ (Q := fun u => ∃ L, At u.inner L 0) (fun s => (udpReader_at hb hs s).1)
    (fun s u hu => let ⟨L, hL, _⟩ := (udpReader_at hb hs s).2 u hu; ⟨L, hL⟩) ?_
  intro u ⟨L, hL⟩
  unfold onDatagram
  split
  · exact NoPanic.bind (fine_udpReaderDone hb _).noPanic fun _ => NoPanic.throw (by nofun)
  · refine NoPanic.bind (fine_onUdpReader hb hL (Dns.RT.readExact 48 0)).noPanic fun x => ?_
    refine NoPanic.bind (fine_udpReaderDone hb _).noPanic fun _ => ?_
    unfold replyOf
    split
    · exact NoPanic.pure _
    · exact NoPanic.throw (by nofun)
end Sntp

end Verif
