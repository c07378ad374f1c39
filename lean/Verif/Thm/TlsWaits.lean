import Verif.Proof.TlsWait
import Verif.Thm.TlsAlerts
/-!
# C97: the TLS client waits for the rest of a record, but not for ever
-/
namespace Verif.Tls
open Verif Hl
open _root_.Verif.Spec (World worldBus TxState RxState Queue)

variable {x : Crypto}

/-- A record: one of the content types of the standard, any version, the length and the body. -/
def IsRecord (r : Bytes) : Prop :=
  ∃ (ct v1 v2 : UInt8) (body : Bytes), ct ∈ [20, 21, 22, 23] ∧ r = [ct, v1, v2] ++ Spec.Tls.u16 body.length ++ body ∧ body.length < 65531

/-- What a call returns that found nothing to do, and the client after it: in a state with a timeout, the caller is told to call again when
ten seconds have passed, and after that the timeout is reported and the client begins to disconnect. -/
def WaitsOrGivesUp (c : Client x) (secs : UInt32) (res : Except (Fail TErr) TEvent) (c' : Client x) : Prop :=
  match c.timeout with
  | none => res = .ok .none ∧ c' = c
  | some t0 =>
    if secs.toNat ≤ t0.toNat + 10 then res = .ok (.callAfter (UInt32.ofNat (10 - (secs.toNat - t0.toNat)))) ∧ c' = c
    else res = .error (.err (.stateTimeout c.state)) ∧ c' = { c with state := .sendDiscon, timeout := none }

theorem afterRecv_waits (dbg : Bool) (secs : UInt32) (w : World) (c : Client x) (h1 : c.state ≠ .sendFinished) (h2 : c.state ≠ .waitDiscon)
    (ht : ∀ t0, c.timeout = some t0 → t0.toNat ≤ secs.toNat) :
    ∃ res c', afterRecv dbg worldBus secs (w, c) = (res, (w, c')) ∧ WaitsOrGivesUp c secs res c' := by
  unfold afterRecv
  rw [X.bind_ok (getC_run (w, c))]
  dsimp only
  rw [if_neg h1]
  unfold checkTimeout Client.elapsedSecs WaitsOrGivesUp
  rw [X.bind_ok (getC_run (w, c))]
  dsimp only
  cases hto : c.timeout with
  | none => exact ⟨_, _, rfl, rfl, rfl⟩
  | some t0 =>
    have hle := ht t0 hto
    dsimp only
    rw [if_neg (by rw [UInt32.lt_iff_toNat_lt]; omega)]
    have hsub : (secs - t0).toNat = secs.toNat - t0.toNat := by
      rw [UInt32.toNat_sub_of_le]
      exact UInt32.le_iff_toNat_le.mpr hle
    have hcip : (ofCipher (.ok (some (secs - t0))) : X TErr (World × Client x) _) = pure (some (secs - t0)) := rfl
    rw [hcip, pure_bind]
    dsimp only
    by_cases hgt : secs.toNat ≤ t0.toNat + 10
    · rw [if_neg (by rw [GT.gt, UInt32.lt_iff_toNat_lt, hsub]; show ¬ 10 < _; omega)]
      refine ⟨_, _, rfl, ?_⟩
      rw [if_pos hgt]
      refine ⟨?_, rfl⟩
      congr 2
      apply UInt32.toNat_inj.mp
      rw [UInt32.toNat_sub_of_le]
      · rw [hsub, UInt32.toNat_ofNat_of_lt' (by show _ < 4294967296; omega)]; rfl
      · rw [UInt32.le_iff_toNat_le, hsub]; show _ ≤ 10; omega
    · rw [if_pos (by rw [GT.gt, UInt32.lt_iff_toNat_lt, hsub]; show 10 < _; omega)]
      have hm : (modC (fun c => if c.state = .waitDiscon then c.reset else c.setState .sendDiscon) : X TErr (World × Client x) Unit) (w, c)
          = (.ok (), (w, { c with state := .sendDiscon, timeout := none })) := by
        unfold modC
        dsimp only
        rw [if_neg h2]
        rfl
      rw [X.bind_ok hm]
      refine ⟨_, _, rfl, ?_⟩
      rw [if_neg hgt]
      exact ⟨rfl, rfl⟩

/-- The proof of C97, with what the call leaves as it was. -/
theorem waits_run (dbg : Bool) (fuel : Nat) (rng : Rng x) (secs : UInt32) (w : World) (c : Client x) (p : Nat)
    (unread : Bytes) (hl : Listens w c p unread) (hf : c.state ≠ .sendFinished) (hi : Quiet w c) (hst : Still c.sn.toU8.toNat w) (rest : Bytes)
    (hrest : rest ≠ []) (hr : IsRecord ((w.chip.received c.sn.toU8.toNat).drop p ++ rest))
    (hlim : ((w.chip.received c.sn.toU8.toNat).drop p ++ rest).length ≤ 5 + c.recordSizeLimit.toNat)
    (ht : ∀ t0, c.timeout = some t0 → t0.toNat ≤ secs.toNat) :
    let r := process dbg fuel worldBus rng secs (w, c)
    (dbg = true ∧ r.1 = .error (.stop .panic)) ∨
    (WaitsOrGivesUp c secs r.1 r.2.2 ∧ r.2.1.chip.sent = w.chip.sent ∧ r.2.1.chip.received c.sn.toU8.toNat = w.chip.received c.sn.toU8.toNat ∧
      RxState r.2.1.chip c.sn.toU8.toNat p ∧ TxState r.2.1.chip c.sn.toU8.toNat ∧ (Peace c.sn.toU8.toNat w → Peace c.sn.toU8.toNat r.2.1) ∧ r.2.1.sched <:+ w.sched ∧
      r.2.1.chip.mem 0 0x18 = w.chip.mem 0 0x18) := by
  intro r
  obtain ⟨base, hat⟩ := hl.rx.at
  have hwd : c.state ≠ .waitDiscon := by
    intro h
    have := hl.state
    rw [h] at this
    exact this (by decide)
  obtain ⟨w1, hs1, hrd1, hp⟩ := process_quiet dbg fuel rng secs c hl.receives hat hl.tx hi
  have hpr : r = receiveRecords dbg fuel worldBus secs (w1, c) := hp
  have hr2 : receiveRecords dbg fuel worldBus secs (w1, c) = (if UInt16.ofNat (w1.tick.chip.rxRsr c.sn.idx) ≥ 5 then
      recv dbg fuel worldBus secs >>= fun event =>
      match event with
      | some event => pure event
      | none => afterRecv dbg worldBus secs
    else afterRecv dbg worldBus secs) (w1.tick, c) := by
    unfold receiveRecords
    rw [X.bind_ok (getC_run (w1, c))]
    dsimp only
    rw [if_neg (by have := hl.receives; rcases hst : c.state <;> rw [hst] at this <;> first | exact absurd this (by decide) | simp),
      X.bind_ok (orFatal_ok (onBus_ok' (run_snRxRsr c.sn w1) c))]
    rfl
  have hs2 := hs1.tick
  have h2 : RxAt w1.tick.chip c.sn.idx base p := ⟨hs2.rx, by rw [tick_rxRd]; exact hrd1⟩
  have hrc2 := (hs2.still hst).2
  have hrsr := h2.rsr_toNat
  rw [hrc2] at hrsr
  have fin : ∀ w3 : World, Sock w w3 c.sn.idx base p → w3.chip.rxRd c.sn.idx = (base + p) % 65536 → r = afterRecv dbg worldBus secs (w3, c) →
      WaitsOrGivesUp c secs r.1 r.2.2 ∧ r.2.1.chip.sent = w.chip.sent ∧ r.2.1.chip.received c.sn.toU8.toNat = w.chip.received c.sn.toU8.toNat ∧
      RxState r.2.1.chip c.sn.toU8.toNat p ∧ TxState r.2.1.chip c.sn.toU8.toNat ∧ (Peace c.sn.toU8.toNat w → Peace c.sn.toU8.toNat r.2.1) ∧ r.2.1.sched <:+ w.sched ∧
      r.2.1.chip.mem 0 0x18 = w.chip.mem 0 0x18 := by
    intro w3 hs3 hrd3 he
    obtain ⟨res, c', e, hw⟩ := afterRecv_waits dbg secs w3 c hf hwd ht
    rw [he, e]
    exact ⟨hw, hs3.sent, (hs3.still hst).2, RxAt.state ⟨hs3.rx, hrd3⟩, hs3.tx, hs3.peace, hs3.sched, hs3.simr⟩
  by_cases h5 : p + 5 ≤ (w.chip.received c.sn.idx).length
  · have hb : ((w.chip.received c.sn.idx).drop p).length = (w.chip.received c.sn.idx).length - p := List.length_drop
    obtain ⟨ct, v1, v2, body, hct, hrec, hlen⟩ := hr
    have hrl := congrArg List.length hrec
    rw [List.length_append] at hrl hlim
    have hsn : c.sn.toU8.toNat = c.sn.idx := rfl
    rw [hsn] at hrec hrl hlim
    have hrest0 : 0 < rest.length := List.length_pos_iff.mpr hrest
    have hu : (Spec.Tls.u16 body.length).length = 2 := rfl
    simp only [List.length_append, List.length_cons, List.length_nil, hu] at hrl
    have htake : ((w.chip.received c.sn.idx).drop p).take 5 = [ct, v1, v2] ++ Spec.Tls.u16 body.length := by
      have := congrArg (List.take 5) hrec
      rw [List.take_append_of_le_length (by omega)] at this
      rw [this]
      rfl
    obtain ⟨k, hk⟩ : ∃ k, ContentType.tryFrom ct = .ok k := by
      simp only [List.mem_cons, List.not_mem_nil, or_false] at hct
      rcases hct with rfl | rfl | rfl | rfl <;> exact ⟨_, rfl⟩
    have hval := u16_value body.length (by omega)
    rcases recvHeader_waits dbg c _ k hs2 h2.rd htake hk hval (by omega) h5 (by omega) (by omega) hst with ⟨w', hdbg, e1⟩ | ⟨w', e1, hs3, hrd3⟩
    · left
      refine ⟨hdbg, ?_⟩
      rw [hpr, hr2, if_pos (by rw [GE.ge, UInt16.le_iff_toNat_le, hrsr]; show 5 ≤ _; omega)]
      have e3 : recv dbg fuel worldBus secs (w1.tick, c) = (.error (.stop .panic), (w', c)) := by
        unfold recv
        exact X.bind_error (orFatal_stop e1)
      rw [X.bind_error e3]
    · right
      refine fin w' hs3 hrd3 ?_
      rw [hpr, hr2, if_pos (by rw [GE.ge, UInt16.le_iff_toNat_le, hrsr]; show 5 ≤ _; omega)]
      have e3 : recv dbg fuel worldBus secs (w1.tick, c) = (.ok none, (w', c)) := by
        unfold recv
        rw [X.bind_ok (orFatal_ok e1)]
        rfl
      rw [X.bind_ok e3]
  · right
    refine fin w1.tick hs2 h2.rd ?_
    rw [hpr, hr2, if_neg (by rw [GE.ge, UInt16.le_iff_toNat_le, hrsr]; show ¬ 5 ≤ _; omega)]

/-- C97: if only a beginning of a record (perhaps nothing) has arrived, and nothing arrives during the call, `process` consumes and sends nothing and
the client does not change, except that it gives up in a state with a timeout when more than ten seconds have passed.  (In a debug build an assertion
about the status of the socket may fail.) -/
theorem C97_waits (dbg : Bool) (fuel : Nat) (rng : Rng x) (secs : UInt32) (w : World) (c : Client x) (p : Nat)
    (unread : Bytes) (hl : Listens w c p unread) (hf : c.state ≠ .sendFinished) (hi : Quiet w c) (hst : Still c.sn.toU8.toNat w) (rest : Bytes)
    (hrest : rest ≠ []) (hr : IsRecord ((w.chip.received c.sn.toU8.toNat).drop p ++ rest))
    (hlim : ((w.chip.received c.sn.toU8.toNat).drop p ++ rest).length ≤ 5 + c.recordSizeLimit.toNat)
    (ht : ∀ t0, c.timeout = some t0 → t0.toNat ≤ secs.toNat) :
    let r := process dbg fuel worldBus rng secs (w, c)
    (dbg = true ∧ r.1 = .error (.stop .panic)) ∨
    (WaitsOrGivesUp c secs r.1 r.2.2 ∧ r.2.1.chip.sent = w.chip.sent ∧ r.2.1.chip.received c.sn.toU8.toNat = w.chip.received c.sn.toU8.toNat ∧
      RxState r.2.1.chip c.sn.toU8.toNat p) := by
  intro r
  exact (waits_run dbg fuel rng secs w c p unread hl hf hi hst rest hrest hr hlim ht).imp id fun h => ⟨h.1, h.2.1, h.2.2.1, h.2.2.2.1⟩

namespace Witness

theorem still (data : Bytes) : Still 3 (Thm.tcpWorld 0 data) := nofun

/-- The client that has sent its ClientHello. -/
theorem listens2 (data : Bytes) (h : data.length ≤ 2048) : Listens (Thm.tcpWorld 0 data) c2 0 [] where
  state := by decide
  holds := by
    have h1 : c2.rx.n = 1024 := by decide +kernel
    refine ⟨?_, ?_, ?_, ?_, ?_, ?_, ?_⟩
    all_goals decide +kernel
  rx := tcpWorld_rx 0 data h
  tx := tcpWorld_tx 0 data

theorem isRecord_part : IsRecord ([22, 3, 3, 0, 90, 2, 0] ++ List.replicate 88 7) :=
  ⟨22, 3, 3, [2, 0] ++ List.replicate 88 7, by decide, rfl, by decide⟩

/-- Seven of the 95 bytes of a record have arrived: after five seconds the client can wait for five seconds more. -/
example : (process false 3 worldBus rng 5 (Thm.tcpWorld 0 [22, 3, 3, 0, 90, 2, 0], c2)).1 = .ok (.callAfter 5) :=
  ((C97_waits false 3 rng 5 _ c2 0 [] (listens2 _ (by decide)) (by decide) (by show Spec.Mqtt.quiet 0 = true; decide) (still _)
    (List.replicate 88 7) (by simp) isRecord_part (by decide +kernel)
    (by intro t0 h; cases h; decide)).resolve_left (fun h => absurd h.1 (by decide))).1.1

/-- After eleven seconds it gives up. -/
example : (process false 3 worldBus rng 11 (Thm.tcpWorld 0 [22, 3, 3, 0, 90, 2, 0], c2)).1 = .error (.err (.stateTimeout .waitServerHello)) :=
  ((C97_waits false 3 rng 11 _ c2 0 [] (listens2 _ (by decide)) (by decide) (by show Spec.Mqtt.quiet 0 = true; decide) (still _)
    (List.replicate 88 7) (by simp) isRecord_part (by decide +kernel)
    (by intro t0 h; cases h; decide)).resolve_left (fun h => absurd h.1 (by decide))).1.1

/-- A connected client with nothing to receive. -/
example : (process false 3 worldBus rng 11 (Thm.tcpWorld 0 [], c5)).1 = .ok .none :=
  ((C97_waits false 3 rng 11 _ c5 0 [] (ready _ (by decide)).listens (by decide) (peace _).quiet (still _)
    ([22, 3, 3, 0, 90, 2, 0] ++ List.replicate 88 7) (by simp) isRecord_part (by decide +kernel)
    (by intro t0 h; cases h)).resolve_left (fun h => absurd h.1 (by decide))).1.1

end Witness

end Verif.Tls
