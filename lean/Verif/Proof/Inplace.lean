import Verif.Proof.X
import Verif.Proof.Emit
import Verif.Thm.TlsGcm
/-!
# Encryption in place in the transmit buffer
-/
namespace Verif
open Hl Spec

theorem readByte_tx (c : Chip) (k a : Nat) (h : 65536 % c.txSize k = 0) :
    c.readByte (4 * k + 2) a = c.mem (4 * k + 2) (a % c.txSize k) := by
  unfold Chip.readByte Chip.phys
  rw [if_pos (by omega), show (4 * k + 2) / 4 = k by omega, Nat.mod_mod_of_dvd _ (Nat.dvd_of_mod_eq_zero h)]

theorem run_snTxBuf (sn : Sn) (w : World) (ptr : UInt16) (n : Nat)
    (h : 65536 % w.tick.chip.txSize sn.idx = 0) :
    worldBus.snTxBuf sn ptr n w
      = (.ok (w.tick.chip.mem.ringRead (4 * sn.idx + 2) (w.tick.chip.txSize sn.idx) ptr.toNat n), w.tick) := by
  unfold Bus.snTxBuf
  rw [M.bind_ok (worldBus_read _ _ _ _)]
  simp only [M.pure_run, Sn.txBlock_idx]
  rw [vector_ofFn_toList (fun i => w.tick.chip.readByte (4 * sn.idx + 2) (ptr.toNat + i))]
  simp only [Mem.ringRead, Prod.mk.injEq, Except.ok.injEq, and_true]
  apply List.map_congr_left
  intro i _
  exact readByte_tx _ _ _ h

theorem ringRead_drop (m : Mem) (b size a n j : Nat) :
    (m.ringRead b size a n).drop j = m.ringRead b size (a + j) (n - j) := by
  apply List.ext_getElem
  · simp [Mem.ringRead_length]
  · intro i h1 h2
    simp [Mem.ringRead, Nat.add_assoc]

/-- Reading in the window. -/
theorem WrRel.get {w : World} {r : Ptrs} {A D Z : Bytes} {p c0 a} (h : WrRel (w, r) ⟨A ++ D ++ Z, p⟩ c0 a) (v : UInt16)
    (hv : v.toNat = (a + A.length) % 65536) :
    worldBus.snTxBuf r.sn v D.length w = (.ok D, w.tick) ∧ WrRel (w.tick, r) ⟨A ++ D ++ Z, p⟩ c0 a := by
  have ht := h.tick
  refine ⟨?_, ht⟩
  have hsz := ht.txSize
  have hdvd := h.dvd
  have hdat := ht.data
  simp only at hsz hdvd hdat
  rw [run_snTxBuf _ _ _ _ (by rw [hsz]; exact hdvd), hsz, hv, Mem.ringRead_mod _ _ _ _ _ _ hdvd]
  have e : ((A ++ D ++ Z).drop A.length).take D.length = D := by simp
  rw [← hdat, ringRead_drop, ringRead_take _ _ _ _ _ _ (by simp)] at e
  rw [e]

/-- Writing in the window. -/
theorem WrRel.set {w : World} {r : Ptrs} {A D Z : Bytes} {p c0 a} (h : WrRel (w, r) ⟨A ++ D ++ Z, p⟩ c0 a) (v : UInt16)
    (hv : v.toNat = (a + A.length) % 65536) (E : Bytes) (he : E.length = D.length) :
    ∃ w', worldBus.setSnTxBuf r.sn v E w = (.ok (), w') ∧ WrRel (w', r) ⟨A ++ E ++ Z, p⟩ c0 a := by
  have hp := h.pos
  have hsm := h.small
  simp only [List.length_append] at hp hsm
  have h1 := h.move v A.length (by simp) hv
  obtain ⟨w', e1, h2⟩ := h1.put E (by simp [he]) (UInt16.ofNat ((a + (A.length + E.length)) % 65536))
    (ofNat16_toNat (Nat.mod_lt _ (by decide)))
  refine ⟨w', e1, ?_⟩
  have hb : (Image.put ⟨A ++ D ++ Z, A.length⟩ E).buf = A ++ E ++ Z := by
    simp [Image.put, he]
  have h3 := h2.move r.ptr p (by rw [hb]; simp; omega) h.ptr
  rw [hb] at h3
  exact h3

/-- A larger window. -/
theorem WrRel.widen {w : World} {r : Ptrs} {i : Image} {c0 : Chip} {a : Nat} (h : WrRel (w, r) i c0 (a + 5))
    (hcap : i.buf.length + 22 ≤ c0.txSize r.sn.idx) :
    ∃ H Z, H.length = 5 ∧ Z.length = 17 ∧
      WrRel (w, { r with head := r.head - 5, tail := UInt16.ofNat ((a + (i.buf.length + 22)) % 65536), ptr := r.head - 5 })
        ⟨H ++ i.buf ++ Z, 0⟩ c0 a := by
  have hd := h.data
  have hh := h.head
  simp only at hd hh
  have hlen : (w.chip.mem.ringRead (4 * r.sn.idx + 2) (c0.txSize r.sn.idx) a (i.buf.length + 22)).length = i.buf.length + 22 :=
    Mem.ringRead_length _ _ _ _ _
  have hs : w.chip.mem.ringRead (4 * r.sn.idx + 2) (c0.txSize r.sn.idx) a (i.buf.length + 22)
      = w.chip.mem.ringRead (4 * r.sn.idx + 2) (c0.txSize r.sn.idx) a 5 ++ i.buf ++
        w.chip.mem.ringRead (4 * r.sn.idx + 2) (c0.txSize r.sn.idx) (a + 5 + i.buf.length) 17 := by
    generalize hm : w.chip.mem.ringRead (4 * r.sn.idx + 2) (c0.txSize r.sn.idx) a (i.buf.length + 22) = B at hlen
    have e1 : B.take 5 = w.chip.mem.ringRead (4 * r.sn.idx + 2) (c0.txSize r.sn.idx) a 5 := by
      rw [← hm, ringRead_take _ _ _ _ _ _ (by omega)]
    have e2 : (B.drop 5).take i.buf.length = i.buf := by
      rw [← hm, ringRead_drop, ringRead_take _ _ _ _ _ _ (by omega), hd]
    have e3 : (B.drop 5).drop i.buf.length = w.chip.mem.ringRead (4 * r.sn.idx + 2) (c0.txSize r.sn.idx) (a + 5 + i.buf.length) 17 := by
      rw [← hm, ringRead_drop, ringRead_drop]
      congr 1
      omega
    rw [← e1, ← e3]
    conv => rhs; lhs; rhs; rw [← e2]
    rw [List.append_assoc, List.take_append_drop, List.take_append_drop]
  refine ⟨w.chip.mem.ringRead (4 * r.sn.idx + 2) (c0.txSize r.sn.idx) a 5, w.chip.mem.ringRead (4 * r.sn.idx + 2) (c0.txSize r.sn.idx)
    (a + 5 + i.buf.length) 17, Mem.ringRead_length _ _ _ _ _, Mem.ringRead_length _ _ _ _ _, ?_⟩
  rw [← hs]
  have hv : (r.head - 5).toNat = a % 65536 := by
    rw [u16_sub_toNat, hh]
    show (_ + 65536 - 5) % 65536 = _
    omega
  constructor
  · exact h.dvd
  · exact h.size_lt
  · rw [hlen]; exact hcap
  · exact Nat.zero_le _
  · exact hv
  · rw [hlen]; exact ofNat16_toNat (Nat.mod_lt _ (by decide))
  · exact hv
  · rw [hlen]
  · intro x hx
    refine h.out x fun j hj => ?_
    have := hx (5 + j) (by rw [hlen]; omega)
    rw [Nat.add_assoc]
    exact this
  · exact h.regs
  · exact h.sent
  · exact h.fsr
  · exact h.rx
  · exact h.pre

namespace Tls
open Verif.Spec.Gcm (gctr counter inc32 J0)
variable {key : Block} {iv : Vector UInt8 12} {aad : Vector UInt8 5}

/-- The loop over whole blocks encrypts them in place. -/
theorem encryptBlocksInplace_run (r : Ptrs) (c0 : Chip) (a p : Nat) (Z : Bytes) (k : Nat) : ∀ {w : World} {C : Bytes} {g : Aes128Gcm}
    (A data : Bytes) (head : UInt16), GInv key iv aad C C.length g → C.length % 16 = 0 →
    C.length / 16 + k ≤ 65534 → 16 * k ≤ data.length → WrRel (w, r) ⟨A ++ data ++ Z, p⟩ c0 a → head.toNat = (a + A.length) % 65536 →
    ∃ g' w' head' E, encryptBlocksInplace worldBus r.sn k g head w = (.ok (g', head'), w') ∧
      E = gctr (Spec.Gcm.aes fun i => key[i.val]) (counter (inc32 (J0 iv.toList)) (C.length / 16)) (data.take (16 * k)) ∧
      GInv key iv aad (C ++ E) (C ++ E).length g' ∧ head'.toNat = (a + A.length + 16 * k) % 65536 ∧
      WrRel (w', r) ⟨A ++ E ++ (data.drop (16 * k) ++ Z), p⟩ c0 a := by
  induction k with
  | zero =>
    intro w C g A data head h hC _ _ hw hh
    refine ⟨g, w, head, [], rfl, by simp [gctr], by simpa using h, by simpa using hh, by simpa using hw⟩
  | succ k ih =>
    intro w C g A data head h hC hl hd hw hh
    have ht : (data.take 16).length = 16 := by rw [List.length_take]; omega
    have hb : (toBlock (data.take 16)).toList = data.take 16 := by
      rw [toBlock_toList _ (by omega), ht]; simp
    obtain ⟨o, g1, h1, h2, h3⟩ := encryptBlock_run h hC (by omega) (toBlock (data.take 16))
    have ho : o.toList.length = 16 := Vector.length_toList
    have hlen : (C ++ o.toList).length = C.length + 16 := by rw [List.length_append, ho]
    have hs : A ++ data ++ Z = A ++ data.take 16 ++ (data.drop 16 ++ Z) := by
      conv => lhs; rw [← List.take_append_drop 16 data]
      simp only [List.append_assoc]
    rw [hs] at hw
    obtain ⟨e1, hw1⟩ := hw.get head hh
    rw [ht] at e1
    obtain ⟨w2, e2, hw2⟩ := hw1.set head hh o.toList (by rw [ho, ht])
    have hs2 : A ++ o.toList ++ (data.drop 16 ++ Z) = (A ++ o.toList) ++ data.drop 16 ++ Z := by simp
    rw [hs2] at hw2
    obtain ⟨g', w', head', E, f1, f2, f3, f4, f5⟩ := ih (A ++ o.toList) (data.drop 16) (head + 16) h2 (by rw [hlen]; omega)
      (by rw [hlen]; omega) (by rw [List.length_drop]; omega) hw2 (by
        rw [UInt16.toNat_add, hh, List.length_append, ho]
        show (_ + 16) % 65536 = _
        omega)
    refine ⟨g', w', head', o.toList ++ E, ?_, ?_, ?_, ?_, ?_⟩
    · unfold encryptBlocksInplace
      rw [X.bind_ok (X.ofM_ok e1), h1, ofCipher_ok, pure_bind]
      dsimp only
      rw [X.bind_ok (X.ofM_ok e2)]
      exact f1
    · have e1 : data.take (16 * (k + 1)) = data.take 16 ++ (data.drop 16).take (16 * k) := by
        rw [show 16 * (k + 1) = 16 + 16 * k by omega, List.take_add]
      rw [f2, hlen, h3, hb, e1, gctr_append _ _ _ _ (by rw [ht]), ht, ← counter_add,
        show (C.length + 16) / 16 = C.length / 16 + 16 / 16 by omega]
    · rw [← List.append_assoc]; exact f3
    · rw [f4, List.length_append, ho]; congr 1; omega
    · rw [List.drop_drop] at f5
      rw [show 16 * (k + 1) = 16 + 16 * k by omega, ← List.append_assoc A]
      exact f5

theorem ptr_arith1 (a p : Nat) : ((a + 5 + 16 * (p / 16)) % 65536 + (p % 16 + 1)) % 65536 = (a + (p + 6)) % 65536 := by omega
theorem ptr_arith2 (a p : Nat) : ((a + (p + 6)) % 65536 + 16) % 65536 = (a + (p + 22)) % 65536 := by omega
theorem len_arith (p : Nat) : 5 + 16 * (p / 16) + (p % 16 + 1) = p + 6 := by omega

set_option maxHeartbeats 1000000 in
/-- `encrypt_record_inplace` sends the protected record of what was written. -/
theorem encryptRecordInplace_run {w : World} {r : Ptrs} {i : Image} {c0 : Chip} {a : Nat} (h : WrRel (w, r) i c0 (a + 5))
    (hcap : i.buf.length + 22 ≤ c0.txSize r.sn.idx) (hrd : c0.txRd r.sn.idx = a % 65536) (hwr : c0.txWr r.sn.idx = a % 65536)
    (key : Block) (nonce : Vector UInt8 12) (ct : ContentType) :
    ∃ w', encryptRecordInplace worldBus r.sn key nonce r.head r.ptr ct w = (.ok (), w') ∧ TxState w'.chip r.sn.idx ∧
      w'.chip.sent = c0.sent ++ [⟨r.sn.idx, c0.destIp r.sn.idx, c0.destPort r.sn.idx,
        (RecordHeader.ser .applicationData (UInt16.ofNat (i.pos + 17))).toList ++
        (Spec.Gcm.ae (Spec.Gcm.aes fun i => key[i.val]) nonce.toList
          (RecordHeader.ser .applicationData (UInt16.ofNat (i.pos + 17))).toList (i.buf.take i.pos ++ [ct.code])).1 ++
        (Spec.Gcm.ae (Spec.Gcm.aes fun i => key[i.val]) nonce.toList
          (RecordHeader.ser .applicationData (UInt16.ofNat (i.pos + 17))).toList (i.buf.take i.pos ++ [ct.code])).2⟩] := by
  have hsm := h.small
  have hpos := h.pos
  have hsz := dvd_le_half h.dvd h.size_lt
  have hh := h.head
  have hp := h.ptr
  simp only at hh hp hsz
  have hdl : (r.ptr - r.head).toNat = i.pos := by rw [u16_sub_toNat, hh, hp]; omega
  have hhl : r.ptr + 17 - r.head = UInt16.ofNat (i.pos + 17) := by
    apply u16_ext
    rw [u16_sub_toNat, UInt16.toNat_add, hh, hp, ofNat16_toNat (by omega)]
    show ((_ + 17) % 65536 + 65536 - _) % 65536 = _
    omega
  obtain ⟨H, Z, hH, hZ, hw⟩ := h.widen hcap
  generalize hr' : ({ r with head := r.head - 5, tail := UInt16.ofNat ((a + (i.buf.length + 22)) % 65536), ptr := r.head - 5 } : Ptrs)
    = r' at hw
  have hsn : r'.sn = r.sn := by rw [← hr']
  have hrp : r'.ptr = r.head - 5 := by rw [← hr']
  unfold encryptRecordInplace
  dsimp only
  rw [hhl]
  generalize hhd : RecordHeader.ser .applicationData (UInt16.ofNat (i.pos + 17)) = header
  have hheadl : header.toList.length = 5 := Vector.length_toList
  -- the header
  rw [show H ++ i.buf ++ Z = [] ++ H ++ (i.buf ++ Z) by simp] at hw
  obtain ⟨w1, e1, hw1⟩ := hw.set (r.head - 5) (by rw [← hrp]; exact hw.ptr) header.toList (by rw [hheadl, hH])
  rw [hsn] at e1
  rw [X.bind_ok (X.ofM_ok e1)]
  -- the whole blocks
  generalize hP : i.buf.take i.pos = P
  have hPl : P.length = i.pos := by rw [← hP, List.length_take]; omega
  rw [List.nil_append, ← List.append_assoc, show i.buf = P ++ i.buf.drop i.pos by rw [← hP, List.take_append_drop],
    ← List.append_assoc, List.append_assoc _ _ Z] at hw1
  generalize hZ' : i.buf.drop i.pos ++ Z = Y at hw1
  have hYl : 17 ≤ Y.length := by rw [← hZ', List.length_append, hZ]; omega
  obtain ⟨g1, w2, head2, E1, f1, f2, f3, f4, f5⟩ := encryptBlocksInplace_run (key := key) (iv := nonce) (aad := header) r' c0 a 0 Y
    ((r.ptr - r.head) / 16).toNat header.toList P r.head (new_inv key nonce header) rfl
    (by rw [UInt16.toNat_div, hdl]; show 0 / 16 + i.pos / 16 ≤ _; omega)
    (by rw [UInt16.toNat_div, hdl]; show 16 * (i.pos / 16) ≤ _; omega) hw1 (by rw [hh, hheadl])
  have hk : ((r.ptr - r.head) / 16).toNat = i.pos / 16 := by rw [UInt16.toNat_div, hdl]; rfl
  have hm : ((r.ptr - r.head) % 16).toNat = i.pos % 16 := by rw [UInt16.toNat_mod, hdl]; rfl
  have hm1 : ((r.ptr - r.head) % 16 + 1).toNat = i.pos % 16 + 1 := by
    rw [UInt16.toNat_add, hm]
    show (i.pos % 16 + 1) % 65536 = _
    omega
  rw [hk] at f2 f4 f5
  rw [hsn] at f1
  rw [X.bind_ok f1]
  dsimp only
  rw [hm, hm1]
  rw [List.nil_append] at f3
  have hE1 : E1.length = 16 * (i.pos / 16) := by rw [f2, gctr_length, List.length_take]; omega
  -- the rest
  generalize hR : P.drop (16 * (i.pos / 16)) = R at f5
  have hRl : R.length = i.pos % 16 := by rw [← hR, List.length_drop]; omega
  rw [← List.append_assoc] at f5
  obtain ⟨e3, hw3⟩ := f5.get head2 (by rw [f4, List.length_append, hheadl, hE1]; congr 1; omega)
  rw [hRl, hsn] at e3
  rw [X.bind_ok (X.ofM_ok e3)]
  have hRt : R.take (i.pos % 16) = R := by rw [← hRl, List.take_length]
  rw [hRt]
  obtain ⟨E2, g2, k1, k2, k3⟩ := encryptRemainder_run f3 (by rw [hE1]; omega) (by rw [hE1]; omega) (R ++ [ct.code]) (by simp)
    (by rw [List.length_append, hRl]; show _ + 1 ≤ 16; omega)
  have hRl' : (R ++ [ct.code]).length = i.pos % 16 + 1 := by rw [List.length_append, hRl]; rfl
  have hE2 : E2.length = i.pos % 16 + 1 := by rw [k3, gctr_length, hRl']
  rw [hRl'] at k1
  rw [k1, ofCipher_ok, pure_bind]
  dsimp only
  have ht2 : (toBlock E2).toList.take (i.pos % 16 + 1) = E2 := by rw [← hE2]; exact toBlock_take E2 (by omega)
  rw [ht2]
  have hT := finish_run k2 (by rw [List.length_append, hE1, hE2]; omega)
  -- split the tail
  have hY : Y = Y.take 1 ++ (Y.drop 1).take 16 ++ Y.drop 17 := by
    rw [List.append_assoc, show Y.drop 17 = (Y.drop 1).drop 16 by rw [List.drop_drop], List.take_append_drop, List.take_append_drop]
  generalize hY1 : Y.take 1 = Y1 at hY
  generalize hY2 : (Y.drop 1).take 16 = Y2 at hY
  generalize hY3 : Y.drop 17 = Y3 at hY
  have hY1l : Y1.length = 1 := by rw [← hY1, List.length_take]; omega
  have hY2l : Y2.length = 16 := by rw [← hY2, List.length_take, List.length_drop]; omega
  rw [hY, show header.toList ++ E1 ++ R ++ (Y1 ++ Y2 ++ Y3) = (header.toList ++ E1) ++ (R ++ Y1) ++ (Y2 ++ Y3) by simp] at hw3
  obtain ⟨w4, e4, hw4⟩ := hw3.set head2 (by rw [f4, List.length_append, hheadl, hE1]; congr 1; omega) E2
    (by rw [hE2, List.length_append, hRl, hY1l])
  rw [hsn] at e4
  rw [X.bind_ok (X.ofM_ok e4)]
  rw [show header.toList ++ E1 ++ E2 ++ (Y2 ++ Y3) = (header.toList ++ E1 ++ E2) ++ Y2 ++ Y3 by simp] at hw4
  have hL : (header.toList ++ E1 ++ E2).length = i.pos + 6 := by
    rw [List.length_append, List.length_append, hheadl, hE1, hE2]; exact len_arith i.pos
  have hv3 : (head2 + ((r.ptr - r.head) % 16 + 1)).toNat = (a + (i.pos + 6)) % 65536 := by
    rw [UInt16.toNat_add, f4, hm1, hheadl]; exact ptr_arith1 a i.pos
  obtain ⟨w5, e5, hw5⟩ := hw4.set (head2 + ((r.ptr - r.head) % 16 + 1)) (by rw [hv3, hL]) g2.finish.toList
    (by rw [Vector.length_toList, hY2l])
  rw [hsn] at e5
  rw [X.bind_ok (X.ofM_ok e5)]
  have hF : g2.finish.toList.length = 16 := Vector.length_toList
  have hL2 : (header.toList ++ E1 ++ E2 ++ g2.finish.toList).length = i.pos + 22 := by rw [List.length_append, hL, hF]
  have hw6 := hw5.move (head2 + ((r.ptr - r.head) % 16 + 1) + 16) (i.pos + 22)
    (by rw [List.length_append, hL2]; omega)
    (by
      rw [UInt16.toNat_add, hv3]
      exact ptr_arith2 a i.pos)
  obtain ⟨w7, s1, s2, s3, -⟩ := hw6.send (hsn.symm ▸ hrd) (hsn.symm ▸ hwr)
  unfold writerSend at s1
  dsimp only at s1 s2 s3
  rw [hsn] at s1 s2 s3
  refine ⟨w7, ?_, ?_, ?_⟩
  · rw [← X.ofM_bind]
    exact X.ofM_ok s1
  · exact s3
  · rw [s2]
    rw [List.take_left' hL2]
    have hC : E1 ++ E2 = Spec.Gcm.crypt (Spec.Gcm.aes fun i => key[i.val]) nonce.toList (P ++ [ct.code]) := by
      have htl : (P.take (16 * (i.pos / 16))).length = 16 * (i.pos / 16) := by rw [List.length_take, hPl]; exact Nat.min_eq_left (Nat.mul_div_le _ _)
      have e : P ++ [ct.code] = P.take (16 * (i.pos / 16)) ++ (R ++ [ct.code]) := by
        rw [← List.append_assoc, ← hR, List.take_append_drop]
      unfold Spec.Gcm.crypt
      rw [e, gctr_append _ _ _ _ (by rw [htl]; exact Nat.mul_mod_right 16 _), htl, f2, k3, hE1]
      rfl
    unfold Spec.Gcm.ae
    dsimp only
    rw [← hC, ← hT]
    simp

end Tls
end Verif
