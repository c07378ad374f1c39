import Verif.Proof.Rx
import Verif.Proof.Closed
namespace Verif
open Hl Spec

/-- A debug assertion that only looks at the chip either passes or panics; only the environment acts. -/
theorem run_debugAssert (dbg : Bool) (m : M World Bool) (w : World) (hm : ∃ r, m w = (.ok r, w.tick)) :
    ∃ w', (w' = w ∨ w' = w.tick) ∧
      (debugAssert dbg m w = (.ok (), w') ∨ (dbg = true ∧ debugAssert dbg m w = (.error .panic, w'))) := by
  unfold debugAssert
  cases dbg with
  | false => exact ⟨w, .inl rfl, .inl rfl⟩
  | true =>
    refine ⟨w.tick, .inr rfl, ?_⟩
    rw [if_pos rfl]
    obtain ⟨r, e⟩ := hm
    rw [M.bind_ok e]
    cases r with
    | true => exact .inl rfl
    | false => exact .inr ⟨rfl, rfl⟩

theorem run_notUdpInitMacraw (sn : Sn) (w : World) : ∃ r, notUdpInitMacraw worldBus sn w = (.ok r, w.tick) := by
  unfold notUdpInitMacraw
  rw [M.bind_ok (run_snSr sn w)]
  exact ⟨_, rfl⟩

theorem run_srIsUdp (sn : Sn) (w : World) : ∃ r, srIsUdp worldBus sn w = (.ok r, w.tick) := by
  unfold srIsUdp
  rw [M.bind_ok (run_snSr sn w)]
  exact ⟨_, rfl⟩

/-- The receive side between operations: `RxOk` and the read pointer at byte `p`. -/
structure RxAt (c : Chip) (k base p : Nat) : Prop where
  rx : RxOk c k base p
  rd : c.rxRd k = (base + p) % 65536

theorem RxAt.tick {w : World} {k base p : Nat} (h : RxAt w.chip k base p) : RxAt w.tick.chip k base p :=
  ⟨h.rx.tick, by rw [tick_rxRd]; exact h.rd⟩

theorem RxAt.of_or {w w' : World} {k base p : Nat} (h : RxAt w.chip k base p) (e : w' = w ∨ w' = w.tick) :
    RxAt w'.chip k base p := by
  rcases e with rfl | rfl
  · exact h
  · exact h.tick

theorem recv_prefix_of_or {w w' : World} (k : Nat) (e : w' = w ∨ w' = w.tick) :
    w.chip.received k <+: w'.chip.received k := by
  rcases e with rfl | rfl
  · exact List.prefix_rfl
  · exact tick_received_prefix w k

/-- Setting the read pointer and issuing RECV. -/
theorem RxAt.consume {w : World} {sn : Sn} {base p q : Nat} (h : RxOk w.chip sn.idx base p) (v : UInt16)
    (hv : v.toNat = (base + q) % 65536) (hpq : p ≤ q) (hq : q ≤ (w.chip.received sn.idx).length) :
    ∃ w', (do worldBus.setSnRxRd sn v; worldBus.setSnCr sn .recv : M World Unit) w = (.ok (), w') ∧
      RxAt w'.chip sn.idx base q ∧ w.chip.received sn.idx <+: w'.chip.received sn.idx := by
  rw [M.bind_ok (run_setSnRxRd sn v w), run_setSnCr]
  refine ⟨_, rfl, ?_, ?_⟩
  · rw [command_recv]
    generalize hw1 : ({ w.tick with chip := w.tick.chip.setReg sn.idx 0x28 v.toNat } : World) = w1
    have h1 : RxOk w1.chip sn.idx base p := by
      rw [← hw1]
      exact (setReg_rxSame _ _ _ _ _ (by omega)).rxOk h.tick
    have hrd : w1.tick.chip.rxRd sn.idx = (base + q) % 65536 := by
      rw [tick_rxRd, ← hw1]
      have := setReg_word w.tick.chip sn.idx 0x28 v.toNat
      show (w.tick.chip.setReg sn.idx 0x28 v.toNat).mem.word _ _ = _
      rw [this, hv]; omega
    have hlen : (w.chip.received sn.idx).length ≤ (w1.tick.chip.received sn.idx).length := by
      have a := (tick_received_prefix w sn.idx).length_le
      have b := (tick_received_prefix w1 sn.idx).length_le
      have c : w1.chip.received sn.idx = w.tick.chip.received sn.idx := by rw [← hw1]; rfl
      rw [c] at b
      omega
    constructor
    · exact h1.tick.cmdRecv hrd hpq (by omega)
    · rw [← hrd]
      unfold Chip.rxRd Chip.cmdRecv Chip.setReg
      exact Mem.word_setWord_ne _ _ _ _ _ _ (by omega)
  · have a := tick_received_prefix w sn.idx
    have b := tick_received_prefix { w.tick with chip := w.tick.chip.setReg sn.idx 0x28 v.toNat } sn.idx
    exact a.trans b

theorem ofNat16_toNat {n : Nat} (h : n < 65536) : (UInt16.ofNat n).toNat = n := by
  rw [UInt16.toNat_ofNat']; omega

theorem u16_ne_zero {a : UInt16} : a ≠ 0 ↔ a.toNat ≠ 0 := by
  constructor
  · intro h h'; exact h (u16_ext h')
  · intro h h'; exact h (by rw [h']; rfl)

/-- Reading the receive buffer at byte number `q`. -/
theorem RxOk.run_rxBuf {w : World} {sn : Sn} {base p : Nat} (h : RxOk w.chip sn.idx base p) (ptr : UInt16)
    (q n : Nat) (hp : ptr.toNat = (base + q) % 65536) (hpq : p ≤ q)
    (hn : q + n ≤ (w.chip.received sn.idx).length) :
    worldBus.snRxBuf sn ptr n w = (.ok (((w.chip.received sn.idx).drop q).take n), w.tick) := by
  rw [run_snRxBuf _ _ _ _ h.tick.dvd, hp, Mem.ringRead_mod _ _ _ _ _ _ h.tick.dvd]
  have := (tick_received_prefix w sn.idx).length_le
  rw [h.tick.ringRead q n hpq (by omega), ← take_drop_prefix (tick_received_prefix w sn.idx) q n hn]

theorem tcpRead_rx (dbg : Bool) (sn : Sn) (n : Nat) (w : World) (base p : Nat)
    (h : RxAt w.chip sn.idx base p) :
    (∃ w', tcpRead dbg worldBus sn n w = (.error .panic, w') ∧ dbg = true ∧ RxAt w'.chip sn.idx base p ∧
        w.chip.received sn.idx <+: w'.chip.received sn.idx) ∨
    (∃ w1 w' x, (w1 = w.tick ∨ w1 = w.tick.tick) ∧
        tcpRead dbg worldBus sn n w = (.ok (UInt16.ofNat x.length, x), w') ∧
        x = ((w1.chip.received sn.idx).drop p).take (min n 65535) ∧
        RxAt w'.chip sn.idx base (p + x.length) ∧
        w1.chip.received sn.idx <+: w'.chip.received sn.idx) := by
  obtain ⟨w0, hw0, hd⟩ := run_debugAssert dbg _ w (run_notUdpInitMacraw sn w)
  unfold tcpRead
  have h0 := h.of_or hw0
  rcases hd.symm with ⟨hdbg, hd⟩ | hd
  · left
    refine ⟨w0, ?_, hdbg, h0, recv_prefix_of_or _ hw0⟩
    rw [M.bind_error hd]
  right
  rw [M.bind_ok hd, M.bind_ok (run_snRxRsr sn w0)]
  have h1 := h0.tick
  generalize hw1 : w0.tick = w1 at h1
  have hlen := h1.rx.rsr
  have hsz := h1.rx.size_lt
  have hf := h1.rx.fits
  have hle := h1.rx.le
  have hrsr : (UInt16.ofNat (w1.chip.rxRsr sn.idx)).toNat = w1.chip.rxRsr sn.idx := ofNat16_toNat (by omega)
  generalize hL : w1.chip.received sn.idx = L at *
  have hm : (min16 (UInt16.ofNat (w1.chip.rxRsr sn.idx)) (lenU16 n)).toNat = min (L.length - p) (min n 65535) := by
    rw [min16_toNat, hrsr, lenU16_toNat, hlen]
  have hxl : ((L.drop p).take (min n 65535)).length = min (L.length - p) (min n 65535) := by
    rw [List.length_take, List.length_drop]; omega
  refine ⟨w1, ?_⟩
  have hw1' : w1 = w.tick ∨ w1 = w.tick.tick := by
    rcases hw0 with rfl | rfl
    · exact .inl hw1.symm
    · exact .inr hw1.symm
  by_cases hz : min16 (UInt16.ofNat (w1.chip.rxRsr sn.idx)) (lenU16 n) = 0
  · refine ⟨w1, (L.drop p).take (min n 65535), hw1', ?_, by rw [hL], ?_, List.prefix_rfl⟩
    · rw [if_neg (by simp [hz])]
      have hz0 : min (L.length - p) (min n 65535) = 0 := by rw [← hm, hz]; rfl
      have : (L.drop p).take (min n 65535) = [] := List.eq_nil_of_length_eq_zero (by omega)
      rw [this, hz]; rfl
    · have hz0 : min (L.length - p) (min n 65535) = 0 := by rw [← hm, hz]; rfl
      rw [hxl, hz0]; exact h1
  · have hz1 := u16_ne_zero.mp hz
    rw [if_pos hz, M.bind_ok (run_snRxRd sn w1)]
    have h2 := h1.tick
    have pre2 := tick_received_prefix w1 sn.idx
    rw [hL] at pre2
    have hlen2 := pre2.length_le
    generalize hw2 : w1.tick = w2 at h2 pre2 hlen2
    have hptr : (UInt16.ofNat (w2.chip.rxRd sn.idx)).toNat = (base + p) % 65536 := by
      rw [ofNat16_toNat (by rw [h2.rd]; omega), h2.rd]
    rw [M.bind_ok (h2.rx.run_rxBuf _ p _ hptr (Nat.le_refl _) (by rw [hm]; omega))]
    have h3 := h2.tick
    have pre3 := tick_received_prefix w2 sn.idx
    generalize hw3 : w2.tick = w3 at h3 pre3
    have hlen3 := pre3.length_le
    obtain ⟨w4, e4, h4, pre4⟩ := RxAt.consume (w := w3) (sn := sn) h3.rx
      (UInt16.ofNat (w2.chip.rxRd sn.idx) + min16 (UInt16.ofNat (w1.chip.rxRsr sn.idx)) (lenU16 n))
      (q := p + min (L.length - p) (min n 65535))
      (by rw [UInt16.toNat_add, hptr, hm]; omega) (by omega) (by omega)
    have e5 : (do
        worldBus.setSnRxRd sn (UInt16.ofNat (w2.chip.rxRd sn.idx)
          + min16 (UInt16.ofNat (w1.chip.rxRsr sn.idx)) (lenU16 n))
        worldBus.setSnCr sn .recv
        pure (min16 (UInt16.ofNat (w1.chip.rxRsr sn.idx)) (lenU16 n),
          ((w2.chip.received sn.idx).drop p).take (min16 (UInt16.ofNat (w1.chip.rxRsr sn.idx)) (lenU16 n)).toNat)
          : M World (UInt16 × Bytes)) w3
        = (.ok (min16 (UInt16.ofNat (w1.chip.rxRsr sn.idx)) (lenU16 n),
          ((w2.chip.received sn.idx).drop p).take (min16 (UInt16.ofNat (w1.chip.rxRsr sn.idx)) (lenU16 n)).toNat), w4) := by
      rw [← bind_assoc, M.bind_ok e4]; rfl
    refine ⟨w4, (L.drop p).take (min n 65535), hw1', ?_, by rw [hL], ?_, ?_⟩
    · rw [e5]
      simp only [Prod.mk.injEq, Except.ok.injEq, and_true]
      constructor
      · apply u16_ext
        rw [hm, hxl, ofNat16_toNat (by omega)]
      · rw [hm, ← take_drop_prefix pre2 p _ (by omega)]
        apply List.ext_getElem
        · rw [List.length_take, List.length_take, List.length_drop]; omega
        · intro i _ _; simp only [List.getElem_take]
    · rw [hxl]; exact h4
    · rw [hL]; exact pre2.trans (pre3.trans pre4)

end Verif
