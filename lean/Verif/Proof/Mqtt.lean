import Verif.Thm.MqttVbi
import Verif.Proof.Prog
/-!
# The MQTT receiver on an in-memory cursor
-/
namespace Verif
open Hl Spec Verif.Mqtt Thm

theorem u8_i16 : ∀ x : UInt8, (x.toUInt16.toInt16).toInt = x.toNat :=
  forall_u8 (p := fun x => (x.toUInt16.toInt16).toInt = x.toNat) (by decide +kernel)

theorem toI16_toInt (x : UInt16) (h : x.toNat ≤ 32767) : (toI16 x).toInt = x.toNat := by
  unfold toI16
  rw [if_pos (by rw [UInt16.le_iff_toNat_le]; exact h)]
  change x.toBitVec.toInt = _
  rw [BitVec.toInt_eq_toNat_cond, if_pos (by change 2 * x.toNat < _; omega)]
  rfl

theorem deser_ok (dbg : Bool) (b0 : UInt8) (v rest : Bytes) (n : Nat) (h : Spec.Mqtt.IsVbi v n) (hl : v.length ≤ 4) (hn : n ≤ 65535) :
    FixedHeader.deser dbg (b0 :: (v ++ rest)) =
      .ok ⟨CtrlPkt.ofNibble (b0 >>> 4), b0 &&& 0xF, UInt16.ofNat n, UInt8.ofNat (v.length + 1)⟩ := by
  obtain ⟨x, k, h1, h2, h3⟩ := C44_decode dbg v rest n h hl
  unfold FixedHeader.deser
  dsimp only
  rw [h1]
  dsimp only
  rw [if_pos (by omega)]
  congr 2
  · apply UInt16.toNat_inj.mp; rw [UInt32.toNat_toUInt16, UInt16.toNat_ofNat', h2]
  · apply UInt8.toNat_inj.mp
    rw [UInt8.toNat_add, h3, UInt8.toNat_ofNat']; rfl

theorem deser_long (dbg : Bool) (b0 : UInt8) (v rest : Bytes) (n : Nat) (h : Spec.Mqtt.IsVbi v n) (hl : v.length ≤ 4) (hn : 65535 < n) :
    FixedHeader.deser dbg (b0 :: (v ++ rest)) = .error .decode := by
  obtain ⟨x, k, h1, h2, h3⟩ := C44_decode dbg v rest n h hl
  unfold FixedHeader.deser
  dsimp only
  rw [h1]
  dsimp only
  rw [if_neg (by omega)]

theorem nibble_code : ∀ t f : Fin 16, (CtrlPkt.ofNibble (UInt8.ofNat (t.val * 16 + f.val) >>> 4)).code.toNat = t.val := by decide +kernel

theorem nibble_eq (t f : Nat) (ht : t < 16) (hf : f < 16) (p : CtrlPkt) (hp : p.code.toNat = t) :
    CtrlPkt.ofNibble (UInt8.ofNat (t * 16 + f) >>> 4) = p := by
  have h := nibble_code ⟨t, ht⟩ ⟨f, hf⟩
  dsimp only at h
  rw [← hp] at h
  rw [← hp]
  generalize CtrlPkt.ofNibble _ = q at h
  cases p <;> cases q <;> first | rfl | (exact absurd h (by decide))

/-- Receiving a complete packet: the match on its type, with the reader after the fixed header. -/
theorem recv_complete (dbg : Bool) (st : State) (b0 : UInt8) (v body rest : Bytes) (h : Spec.Mqtt.IsVbi v body.length) (hl : v.length ≤ 4)
    (hs : (b0 :: (v ++ (body ++ rest))).length ≤ 32768) :
    (recvProg dbg st).run cursorOps ⟨b0 :: (v ++ (body ++ rest)), 0⟩ =
      (recvBody st ⟨CtrlPkt.ofNibble (b0 >>> 4), b0 &&& 0xF, UInt16.ofNat body.length, UInt8.ofNat (v.length + 1)⟩).run cursorOps
        ⟨b0 :: (v ++ (body ++ rest)), 1 + v.length⟩ := by
  have hs' : 1 + v.length + body.length + rest.length ≤ 32768 := by simp at hs; omega
  unfold recvProg
  rw [RProg.bind_ok (cur_read _ _ _)]
  have htake : List.take 5 (List.drop 0 (b0 :: (v ++ (body ++ rest)))) = b0 :: (v ++ (body ++ rest).take (4 - v.length)) := by
    simp [List.take_append, List.take_of_length_le hl]
  rw [htake, deser_ok dbg b0 v _ body.length h hl (by omega)]
  dsimp only
  have hlen : (UInt8.ofNat (v.length + 1)).toUInt16.toNat = 1 + v.length := by
    rw [UInt8.toNat_toUInt16, UInt8.toNat_ofNat']; omega
  rw [RProg.bind_ok (cur_seekStart (by rw [hlen]; simp; omega)), hlen, RProg.bind_ok (cur_remain _ _)]
  rw [if_neg]
  rw [gt_iff_lt, UInt16.lt_iff_toNat_lt, UInt16.toNat_ofNat', UInt16.toNat_ofNat']
  simp
  omega

theorem strict_prefix_length {a b : Bytes} (h : a <+: b) (hne : a ≠ b) : a.length < b.length := by
  rcases Nat.lt_or_ge a.length b.length with hl | hl
  · exact hl
  · exact absurd (h.eq_of_length_le hl) hne

/-- Receiving part of a packet. -/
theorem recv_incomplete (dbg : Bool) (st : State) (b0 : UInt8) (v body D : Bytes) (h : Spec.Mqtt.IsVbi v body.length) (hl : v.length ≤ 4)
    (hb : body.length ≤ 65535) (hs : D.length ≤ 32768) (hp : D <+: b0 :: (v ++ body)) (hne : D ≠ b0 :: (v ++ body)) :
    ∃ c, (recvProg dbg st).run cursorOps ⟨D, 0⟩ = (.ok .pending, c) := by
  have hlen := strict_prefix_length hp hne
  simp at hlen
  obtain ⟨t, ht⟩ := hp
  unfold recvProg
  rw [RProg.bind_ok (cur_read _ _ _), List.drop_zero]
  cases D with
  | nil => exact ⟨_, rfl⟩
  | cons x D =>
    simp at ht hlen
    obtain ⟨rfl, ht⟩ := ht
    by_cases hv : v.length ≤ D.length
    · -- the header is complete
      obtain ⟨D', rfl⟩ : ∃ D', D = v ++ D' := by
        refine ⟨D.drop v.length, ?_⟩
        conv => lhs; rw [← List.take_append_drop v.length D]
        congr 1
        have := congrArg (List.take v.length) ht
        rwa [List.take_append_of_le_length hv, List.take_append_of_le_length (Nat.le_refl _), List.take_length] at this
      have htake : List.take 5 (x :: (v ++ D')) = x :: (v ++ D'.take (4 - v.length)) := by
        simp [List.take_append, List.take_of_length_le hl]
      rw [htake, deser_ok dbg x v _ body.length h hl hb]
      dsimp only
      have hlen' : (UInt8.ofNat (v.length + 1)).toUInt16.toNat = 1 + v.length := by
        rw [UInt8.toNat_toUInt16, UInt8.toNat_ofNat']; omega
      rw [RProg.bind_ok (cur_seekStart (by rw [hlen']; simp; omega)), hlen', RProg.bind_ok (cur_remain _ _), if_pos]
      · exact ⟨_, rfl⟩
      · rw [gt_iff_lt, UInt16.lt_iff_toNat_lt, UInt16.toNat_ofNat', UInt16.toNat_ofNat']
        simp at hlen hs ⊢
        omega
    · have hD : D <+: v := by
        refine ⟨(v.drop D.length), ?_⟩
        have := congrArg (List.take D.length) ht
        rw [List.take_append_of_le_length (Nat.le_refl _), List.take_length, List.take_append_of_le_length (by omega)] at this
        conv => lhs; lhs; rw [this]
        exact List.take_append_drop _ _
      have htake : List.take 5 (x :: D) = x :: D := List.take_of_length_le (by simp; omega)
      rw [htake]
      have hd : FixedHeader.deser dbg (x :: D) = .error .fragment := by
        obtain ⟨e, h1, h2, -⟩ := C44_decode_error dbg D (by
          intro bs rest n he hb
          obtain ⟨t', ht'⟩ := hD
          have := (isVbi_unique hb h (ra := rest ++ t') (rb := []) (by rw [← List.append_assoc, ← he, ht']; simp)).1
          rw [this] at he
          have := congrArg List.length he
          simp at this
          omega)
        unfold FixedHeader.deser
        dsimp only
        rw [h1, (h2.mpr (by omega))]
      rw [hd]
      exact ⟨_, rfl⟩

/-- A length that does not end within four bytes. -/
theorem recv_malformed (dbg : Bool) (st : State) (b0 b1 b2 b3 b4 : UInt8) (rest : Bytes) (h1 : 128 ≤ b1.toNat) (h2 : 128 ≤ b2.toNat)
    (h3 : 128 ≤ b3.toNat) (h4 : 128 ≤ b4.toNat) :
    ∃ c, (recvProg dbg st).run cursorOps ⟨b0 :: b1 :: b2 :: b3 :: b4 :: rest, 0⟩ = (.ok .pending, c) := by
  unfold recvProg
  rw [RProg.bind_ok (cur_read _ _ _), List.drop_zero]
  have hd : FixedHeader.deser dbg (List.take 5 (b0 :: b1 :: b2 :: b3 :: b4 :: rest)) = .error .fragment := by
    obtain ⟨e, e1, e2, -⟩ := (decode_gen dbg 4 (by omega) [b1, b2, b3, b4] 1 0 0 (by decide) (by decide)).2 (by simp; omega)
    change decodeVbi dbg [b1, b2, b3, b4] = _ at e1
    change FixedHeader.deser dbg [b0, b1, b2, b3, b4] = _
    unfold FixedHeader.deser
    dsimp only
    rw [e1, e2.mp (by simp)]
  rw [hd]
  exact ⟨_, rfl⟩

/-- A length above 65535. -/
theorem recv_long (dbg : Bool) (st : State) (b0 : UInt8) (v rest : Bytes) (n : Nat) (h : Spec.Mqtt.IsVbi v n) (hl : v.length ≤ 4)
    (hn : 65535 < n) : ∃ c, (recvProg dbg st).run cursorOps ⟨b0 :: (v ++ rest), 0⟩ = (.ok (.bad .decode true), c) := by
  unfold recvProg
  rw [RProg.bind_ok (cur_read _ _ _), List.drop_zero]
  have htake : List.take 5 (b0 :: (v ++ rest)) = b0 :: (v ++ rest.take (4 - v.length)) := by
    simp [List.take_append, List.take_of_length_le hl]
  rw [htake, deser_long dbg b0 v _ n h hl hn]
  exact ⟨_, rfl⟩

/-! ## The bodies of the packets -/

theorem drop_at {pre post D : Bytes} {k : Nat} (h : D = pre ++ post) (hk : pre.length = k) : D.drop k = post := by
  subst h hk; simp

theorem body_connAck (D : Bytes) (k : Nat) (sp code : UInt8) (tail : Bytes) (n : UInt16) (hD : D.drop k = sp :: code :: tail)
    (hn : n.toNat + 2 ≤ D.length) (hs : D.length ≤ 32768) :
    (recvConnAck .waitConAck n).run cursorOps ⟨D, k⟩ = (.ok (.connAck code), ⟨D, n.toNat + 2⟩) := by
  unfold recvConnAck
  have hk : 2 ≤ D.length - k := by rw [← List.length_drop, hD]; simp
  have hsat : (satAdd2 n).toNat = n.toNat + 2 := by
    unfold satAdd2
    rw [if_pos (by omega), UInt16.toNat_add]; change (n.toNat + 2) % 65536 = _; omega
  rw [if_neg (by simp), RProg.bind_ok (cur_readExact hk), RProg.bind_ok (cur_seekStart (by rw [hsat]; exact hn)), hD, hsat]
  rfl

theorem run_skip (D : Bytes) (k : Nat) (n : UInt8) (h : k + n.toNat ≤ D.length) :
    (skipProperties n).run cursorOps ⟨D, k⟩ = (.ok (), ⟨D, k + n.toNat⟩) := by
  unfold skipProperties
  by_cases hn : n = 0
  · rw [if_neg (by simpa using hn), hn]; rfl
  · rw [if_pos hn, cur_seekCurrent (q := k + n.toNat) (by rw [u8_i16]; omega) h]

theorem body_ack (f : UInt16 → UInt8 → RecvOut) (D : Bytes) (k : Nat) (a b pl code : UInt8) (props tail : Bytes) (hp : props.length = pl.toNat)
    (hD : D.drop k = a :: b :: pl :: (props ++ code :: tail)) :
    (recvAck f).run cursorOps ⟨D, k⟩ = (.ok (f (be16 a b) code), ⟨D, k + 3 + pl.toNat + 1⟩) := by
  have hlen : D.length - k = 3 + (props.length + 1 + tail.length) := by rw [← List.length_drop, hD]; simp; omega
  unfold recvAck
  rw [RProg.bind_ok (cur_read _ _ _), hD]
  change (skipProperties pl >>= fun _ => RProg.doReadExact 1 >>= fun payload =>
        pure (f (be16 a b) (payload.getD 0 0))).run cursorOps (Cursor.mk D (k + 3)) = _
  rw [RProg.bind_ok (run_skip D (k + 3) pl (by omega)), RProg.bind_ok (cur_readExact (by omega))]
  have hd : List.drop (k + 3 + pl.toNat) D = code :: tail := by
    rw [Nat.add_assoc, ← List.drop_drop, hD]
    exact drop_at (pre := a :: b :: pl :: props) (by simp) (by simp; omega)
  rw [hd]
  rfl

theorem body_ack_short (f : UInt16 → UInt8 → RecvOut) (D : Bytes) (k : Nat) (h : D.length - k < 3) :
    ∃ c, (recvAck f).run cursorOps ⟨D, k⟩ = (.ok (.bad .decode false), c) := by
  unfold recvAck
  rw [RProg.bind_ok (cur_read _ _ _)]
  have hl : (List.take 3 (List.drop k D)).length < 3 := by simp; omega
  generalize List.take 3 (List.drop k D) = x at hl ⊢
  match x, hl with
  | [], _ => exact ⟨_, rfl⟩
  | [_], _ => exact ⟨_, rfl⟩
  | [_, _], _ => exact ⟨_, rfl⟩

theorem satSub16_toNat (a b : UInt16) : (satSub16 a b).toNat = a.toNat - b.toNat := by
  unfold satSub16
  by_cases h : a < b
  · rw [if_pos h]; rw [UInt16.lt_iff_toNat_lt] at h; change 0 = _; omega
  · rw [if_neg h, UInt16.toNat_sub_of_le]; rwa [UInt16.not_lt] at h

theorem body_publish (D : Bytes) (k : Nat) (topic props payload tail : Bytes) (pl : UInt8) (n : UInt16) (hp : props.length = pl.toNat)
    (hs : D.length ≤ 32768) (hn : n.toNat = 2 + topic.length + 1 + props.length + payload.length)
    (hD : D.drop k = Spec.Mqtt.str topic ++ pl :: (props ++ (payload ++ tail))) :
    ∃ i : PubInfo, (recvPublish n).run cursorOps ⟨D, k⟩ = (.ok (.publish i), ⟨D, k + 2 + topic.length + 1 + props.length⟩) ∧
      i.topicLen.toNat = topic.length ∧ i.topicIdx.toNat = k + 2 ∧ i.payloadLen.toNat = payload.length ∧
      i.payloadIdx.toNat = k + 2 + topic.length + 1 + props.length := by
  have hlen : D.length - k = 2 + topic.length + (1 + props.length + payload.length + tail.length) := by
    rw [← List.length_drop, hD]; simp [Spec.Mqtt.str, Spec.Mqtt.u16]; omega
  have htl : (be16 (UInt8.ofNat (topic.length / 256)) (UInt8.ofNat topic.length)).toNat = topic.length := by
    rw [be16_toNat, UInt8.toNat_ofNat', UInt8.toNat_ofNat']; omega
  unfold recvPublish
  rw [RProg.bind_ok (cur_readExact (by omega)), hD]
  have ht : List.take 2 (Spec.Mqtt.str topic ++ pl :: (props ++ (payload ++ tail))) = Spec.Mqtt.u16 topic.length := rfl
  rw [ht, RProg.bind_ok (cur_streamPosition _ _)]
  simp only [Spec.Mqtt.u16, List.getD_cons_zero, List.getD_cons_succ]
  generalize htl' : be16 (UInt8.ofNat (topic.length / 256)) (UInt8.ofNat topic.length) = tl at *
  rw [RProg.bind_ok (cur_seekCurrent (q := k + 2 + topic.length) (by rw [toI16_toInt _ (by omega)]; omega) (by omega)),
    RProg.bind_ok (cur_readExact (by omega))]
  have hd : List.drop (k + 2 + topic.length) D = pl :: (props ++ (payload ++ tail)) := by
    rw [Nat.add_assoc, ← List.drop_drop, hD]
    exact drop_at (pre := Spec.Mqtt.str topic) rfl (by simp [Spec.Mqtt.str, Spec.Mqtt.u16]; omega)
  rw [hd]
  simp only [List.take_succ_cons, List.take_zero, List.getD_cons_zero]
  rw [RProg.bind_ok (run_skip D _ pl (by omega)), RProg.bind_ok (cur_streamPosition _ _), ← hp]
  refine ⟨_, rfl, htl, ?_, ?_, ?_⟩
  · rw [UInt16.toNat_ofNat']; omega
  · dsimp only
    rw [satSub16_toNat, satSub16_toNat, satSub16_toNat, satSub16_toNat, htl, UInt8.toNat_toUInt16]
    change n.toNat - topic.length - 2 - 1 - pl.toNat = _
    omega
  · rw [UInt16.toNat_ofNat']; omega

end Verif
