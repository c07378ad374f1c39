import Verif.Proof.DhcpSilent
/-!
# C118: a DHCP client that gets no answer
-/
namespace Verif.Thm
open Verif Hl Spec Dhcp

theorem silent_calls (fuel n : Nat) (calls : List (List EnvStep × UInt32 × List (List EnvStep))) :
    ∀ (w : World) (c : Client) (since : UInt32) (p : Nat), Asked c since p w → (∀ call ∈ calls, NoAnswer c.sn.idx call) →
    laterResults (fuel + 1) (n + 1) calls (w, c) = (waitTimes c.timeout since (calls.map (·.2.1))).map .ok ∧
    (laterCalls false (fuel + 1) (n + 1) calls (w, c)).2.hasLease = false ∧
    ∃ msgs : List Bytes, (laterCalls false (fuel + 1) (n + 1) calls (w, c)).1.chip.sent =
        w.chip.sent ++ msgs.map (fun m => ⟨c.sn.idx, c.broadcastAddr.ip.octets, c.broadcastAddr.port.toNat, m⟩) ∧
      msgs.map decode = (draws (askTimes c.timeout since (calls.map (·.2.1))).length c.rand).map fun x => some (discoverMessage c.mac c.hostname x) := by
  induction calls with
  | nil =>
    intro w c since p h _
    refine ⟨rfl, ?_, [], by simp [laterCalls], rfl⟩
    show c.hasLease = false
    unfold Client.hasLease
    rcases h.state with e | e <;> rw [e]
  | cons call calls ih =>
    obtain ⟨es, t, sched⟩ := call
    intro w c since p h hn
    have hs := call_silent fuel n es t sched w c since p h (hn _ List.mem_cons_self)
    dsimp only at hs
    rw [laterResults, laterCalls]
    simp only [List.map_cons]
    generalize process false (fuel + 1) (n + 1) worldBus t (w.pause es sched, c) = r at hs ⊢
    obtain ⟨r1, w', c'⟩ := r
    dsimp only at hs ⊢
    rcases hs with ⟨g1, rfl, g3, rfl, g5⟩ | ⟨g1, rfl, rfl, g4, m, g5, g6⟩
    · obtain ⟨i1, i2, msgs, i3, i4⟩ := ih w' c' since p g5 (fun x hx => hn x (List.mem_cons_of_mem _ hx))
      rw [waitTimes, askTimes, if_neg g1, if_neg g1, i1]
      exact ⟨rfl, i2, msgs, by rw [i3, g3], i4⟩
    · obtain ⟨i1, i2, msgs, i3, i4⟩ := ih w' _ t 0 g4 (fun x hx => hn x (List.mem_cons_of_mem _ hx))
      rw [waitTimes, askTimes, if_pos g1, if_pos g1, i1]
      refine ⟨rfl, i2, m :: msgs, ?_, ?_⟩
      · rw [i3, g5, List.append_assoc]; rfl
      · simp only [List.map_cons, List.length_cons, draws]
        rw [g6, i4]

/-- C118: a client that has sent a DISCOVER or a REQUEST at the time `since` and gets no answer.  Over any calls, whenever they are made, it sends
one DISCOVER, to the broadcast address and with a new transaction id, at each call made more than the timeout after the last time it asked, and nothing
at the others; it always returns the seconds that are left of the timeout; and it never has a lease.  The times are those of a counter
that may wrap around.  (Release build.) -/
theorem C118_asks_again (fuel n : Nat) (calls : List (List EnvStep × UInt32 × List (List EnvStep))) (w : World) (c : Client) (since : UInt32) (p : Nat)
    (hs : c.state = .selecting ∨ c.state = .requesting) (hto : c.stateTimeout = some since) (hv : ValidHostname c.hostname)
    (hsz : Sizes w.chip c.sn.toU8.toNat) (hroom : 255 + c.hostname.length ≤ w.chip.txSize c.sn.toU8.toNat)
    (hr : RxState w.chip c.sn.toU8.toNat p) (hq : w.chip.unread c.sn.toU8.toNat = [])
    (hn : ∀ call ∈ calls, NoAnswer c.sn.toU8.toNat call) :
    let times := calls.map (·.2.1)
    let after := laterCalls false (fuel + 1) (n + 1) calls (w, c)
    laterResults (fuel + 1) (n + 1) calls (w, c) = (waitTimes c.timeout since times).map .ok ∧ after.2.hasLease = false ∧
    ∃ msgs : List Bytes, after.1.chip.sent = w.chip.sent ++ msgs.map (fun m => ⟨c.sn.toU8.toNat, c.broadcastAddr.ip.octets, c.broadcastAddr.port.toNat, m⟩) ∧
      msgs.map decode = (draws (askTimes c.timeout since times).length c.rand).map fun x => some (discoverMessage c.mac c.hostname x) := by
  refine silent_calls fuel n calls w c since p ⟨hs, hto, hv, hsz, hroom, hr, ?_⟩ hn
  have h1 := congrArg List.length hr.data
  rw [hq, List.length_drop] at h1
  have h2 := hr.le
  simp at h1
  show (w.chip.received c.sn.toU8.toNat).length = p
  omega

/-- C118: a new client with the link up and nothing to read asks at its first call, and then as `C118_asks_again` says. -/
theorem C118_from_the_start (fuel n : Nat) (t0 : UInt32) (calls : List (List EnvStep × UInt32 × List (List EnvStep)))
    (w : World) (c : Client) (p : Nat) (hi : c.state = .init) (hto : c.stateTimeout = none) (hl : linkUp w.chip = true)
    (hv : ValidHostname c.hostname) (hsz : Sizes w.chip c.sn.toU8.toNat) (hroom : 255 + c.hostname.length ≤ w.chip.txSize c.sn.toU8.toNat)
    (hr : RxState w.chip c.sn.toU8.toNat p) (hq : w.chip.unread c.sn.toU8.toNat = [])
    (hn : ∀ call ∈ ([], t0, w.sched) :: calls, NoAnswer c.sn.toU8.toNat call) :
    let times := calls.map (·.2.1)
    let first := process false (fuel + 1) (n + 1) worldBus t0 (w, c)
    let after := laterCalls false (fuel + 1) (n + 1) calls first.2
    first.1 = .ok c.timeout ∧
    laterResults (fuel + 1) (n + 1) calls first.2 = (waitTimes c.timeout t0 times).map .ok ∧ after.2.hasLease = false ∧
    ∃ msgs : List Bytes, after.1.chip.sent = w.chip.sent ++ msgs.map (fun m => ⟨c.sn.toU8.toNat, c.broadcastAddr.ip.octets, c.broadcastAddr.port.toNat, m⟩) ∧
      msgs.map decode = (draws ((askTimes c.timeout t0 times).length + 1) c.rand).map fun x => some (discoverMessage c.mac c.hostname x) := by
  have hp : (w.chip.received c.sn.idx).length = p := by
    have h1 := congrArg List.length hr.data
    rw [hq, List.length_drop] at h1
    have h2 := hr.le
    simp at h1
    show (w.chip.received c.sn.toU8.toNat).length = p
    omega
  have hn0 := hn _ List.mem_cons_self
  have hs := call_first fuel n t0 w c p hi hto hl hv hsz hn0.status (fun es he => hn0.silent es (List.mem_cons_of_mem _ he)) hr hp hroom
  dsimp only at hs
  intro times first
  have hf : first = process false (fuel + 1) (n + 1) worldBus t0 (w, c) := rfl
  rw [← hf] at hs
  clear hf
  clear_value first
  obtain ⟨r1, w', c'⟩ := first
  dsimp only at hs ⊢
  obtain ⟨rfl, rfl, g4, m, g5, g6⟩ := hs
  obtain ⟨i1, i2, msgs, i3, i4⟩ := silent_calls fuel n calls w' _ t0 0 g4 (fun x hx => hn x (List.mem_cons_of_mem _ hx))
  refine ⟨rfl, i1, i2, m :: msgs, ?_, ?_⟩
  · rw [i3, g5, List.append_assoc]; rfl
  · simp only [List.map_cons, draws]
    rw [g6, i4]

/-- C118: as long as the calls are more than the timeout apart, every call asks. -/
theorem C118_every_call (timeout since : UInt32) (times : List UInt32)
    (h : ∀ (k : Nat) (a b : UInt32), (since :: times)[k]? = some a → times[k]? = some b → timeout < b - a) : askTimes timeout since times = times := by
  induction times generalizing since with
  | nil => rfl
  | cons t ts ih =>
    rw [askTimes, if_pos (h 0 since t rfl rfl), ih t (fun k a b ha hb => h (k + 1) a b ha hb)]

/-- C118: a client that is called exactly when it asked to be called, and has got no answer, does nothing and asks to be called at once, until the
next second has begun. -/
theorem C118_called_when_asked (fuel n : Nat) (es : List EnvStep) (sched : List (List EnvStep)) (w : World) (c : Client) (since : UInt32) (p : Nat)
    (hs : c.state = .selecting ∨ c.state = .requesting) (hto : c.stateTimeout = some since) (hv : ValidHostname c.hostname)
    (hsz : Sizes w.chip c.sn.toU8.toNat) (hroom : 255 + c.hostname.length ≤ w.chip.txSize c.sn.toU8.toNat)
    (hr : RxState w.chip c.sn.toU8.toNat p) (hq : w.chip.unread c.sn.toU8.toNat = [])
    (hn : NoAnswer c.sn.toU8.toNat (es, since + c.timeout, sched)) :
    let r := process false (fuel + 1) (n + 1) worldBus (since + c.timeout) (w.pause es sched, c)
    r.1 = .ok 0 ∧ r.2.1.chip.sent = w.chip.sent := by
  obtain ⟨h1, -, msgs, h2, h3⟩ := C118_asks_again fuel n [(es, since + c.timeout, sched)] w c since p hs hto hv hsz hroom hr hq
    (by intro call hc; rw [List.mem_singleton.mp hc]; exact hn)
  have e : since + c.timeout - since = c.timeout := by rw [UInt32.add_comm, UInt32.add_sub_cancel]
  have hlt : ¬ c.timeout < since + c.timeout - since := by rw [e]; exact UInt32.lt_irrefl _
  simp only [List.map_cons, List.map_nil, waitTimes, askTimes, if_neg hlt, laterResults, laterCalls, List.length_nil, draws] at h1 h2 h3
  rw [e, UInt32.sub_self] at h1
  rw [List.map_eq_nil_iff.mp h3] at h2
  exact ⟨(List.cons.inj h1).1, by rw [h2]; simp⟩

/-! ## The hypotheses are met -/

/-- Calls 3, 5, 6 and 12 seconds after the first one at 100. -/
def silentCalls : List (List EnvStep × UInt32 × List (List EnvStep)) :=
  [([.raise 5 4], 103, [[.free 5 1]]), ([], 105, []), ([.arrive 4 [1]], 106, []), ([], 112, [[], [.arrive 2 [3]]])]

/-- A new client waits 5 seconds; so it asks at 100, at 106 and at 112, each time with another transaction id. -/
example : freshClient.timeout = 5 ∧ waitTimes 5 100 (silentCalls.map (·.2.1)) = [2, 0, 5, 5] ∧ askTimes 5 100 (silentCalls.map (·.2.1)) = [106, 112] ∧
    (draws 3 freshClient.rand).Nodup ∧
    freshClient.broadcastAddr.ip.octets = [255, 255, 255, 255] ∧ freshClient.broadcastAddr.port = 67 ∧ (linkedWorld []).chip.sent = [] := by decide +kernel

theorem silentCalls_noAnswer : ∀ call ∈ ([], 100, (linkedWorld []).sched) :: silentCalls, NoAnswer 5 call := by
  intro call h
  simp only [silentCalls, List.mem_cons, List.not_mem_nil, or_false] at h
  rcases h with rfl | rfl | rfl | rfl | rfl <;> constructor <;> intro es he <;> simp [linkedWorld] at he <;> (try rcases he with rfl | rfl | rfl) <;> simp_all

set_option maxRecDepth 8000 in
example : ∃ msgs : List Bytes, (laterCalls false (8 + 1) (2 + 1) silentCalls (process false (8 + 1) (2 + 1) worldBus 100 (linkedWorld [], freshClient)).2).1.chip.sent =
      (linkedWorld []).chip.sent ++ msgs.map (fun m => ⟨freshClient.sn.toU8.toNat, freshClient.broadcastAddr.ip.octets, freshClient.broadcastAddr.port.toNat, m⟩) ∧
    msgs.length = 3 := by
  obtain ⟨-, -, -, msgs, h1, h2⟩ := C118_from_the_start 8 2 100 silentCalls (linkedWorld []) freshClient 0 rfl rfl (by decide +kernel) freshClient_hostname
    ⟨by decide +kernel, by decide +kernel, by decide +kernel, by decide +kernel⟩ (by decide +kernel)
    ⟨by decide +kernel, by decide +kernel, by decide +kernel, by decide +kernel, by decide +kernel, by decide +kernel⟩ (by decide +kernel) silentCalls_noAnswer
  refine ⟨msgs, h1, ?_⟩
  have := congrArg List.length h2
  rw [List.length_map, List.length_map] at this
  rw [this]
  decide +kernel

end Verif.Thm
