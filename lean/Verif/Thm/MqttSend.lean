import Verif.Thm.MqttVbi
import Verif.Proof.Emit
/-!
# C45: MQTT packets sent
-/
namespace Verif.Thm
open Verif Hl Spec Verif.Mqtt

theorem emits_vbi (k : Nat) (n : UInt32) (h : n.toNat < 268435456) : EmitsAt k (writeVbi n) (Spec.Mqtt.vbi n.toNat) := by
  unfold writeVbi encodeVbi
  rw [encode_gen, if_pos (by omega)]
  exact .writeAll _ _

theorem u16_toBe (x : UInt16) (n : Nat) (h : x.toNat = n) : toBe16 x = Spec.Mqtt.u16 n := by
  subst h; unfold toBe16 Spec.Mqtt.u16; rw [hi_ofNat, lo_ofNat]

theorem vbi_zero : Spec.Mqtt.vbi 0 = [0] := by rw [Spec.Mqtt.vbi]; rfl

theorem u32_sum2 (a b : UInt16) : (2 + a.toUInt32 + 1 + b.toUInt32).toNat = 3 + a.toNat + b.toNat := by
  have := a.toNat_lt; have := b.toNat_lt
  simp only [UInt32.toNat_add, UInt16.toNat_toUInt32, UInt32.toNat_ofNat]; omega
theorem u32_sum1 (a : UInt16) : (2 + 1 + a.toUInt32).toNat = 3 + a.toNat := by
  have := a.toNat_lt
  simp only [UInt32.toNat_add, UInt16.toNat_toUInt32, UInt32.toNat_ofNat]; omega

theorem take_len16 (bs : Bytes) : bs.take (lenU16 bs.length).toNat = bs.take 65535 ∧ (lenU16 bs.length).toNat = (bs.take 65535).length := by
  rw [lenU16_toNat, List.length_take]
  refine ⟨?_, by omega⟩
  by_cases h : bs.length ≤ 65535
  · rw [List.take_of_length_le (by omega), List.take_of_length_le (by omega)]
  · rw [show min bs.length 65535 = 65535 by omega]

theorem emits_publish (topic payload : Bytes) (k : Nat) :
    EmitsAt k (publishProg topic payload) (Spec.Mqtt.publish (topic.take 65535) (payload.take 65535)) := by
  obtain ⟨t1, t2⟩ := take_len16 topic
  obtain ⟨p1, p2⟩ := take_len16 payload
  have hn := u32_sum2 (lenU16 topic.length) (lenU16 payload.length)
  have := (lenU16 topic.length).toNat_lt
  have := (lenU16 payload.length).toNat_lt
  unfold publishProg
  refine EmitsAt.cast ((EmitsAt.writeAll k [CtrlPkt.publish.code <<< 4]).bind ((emits_vbi _ _ (by omega)).bind ((EmitsAt.writeAll _ _).bind
    ((EmitsAt.writeAll _ _).bind ((EmitsAt.writeAll _ _).bind (EmitsAt.writeAll _ _)))))) rfl ?_
  rw [hn, u16_toBe _ _ t2, t1, p1, t2, p2]
  generalize topic.take 65535 = t
  generalize payload.take 65535 = p
  unfold Spec.Mqtt.publish Spec.Mqtt.packet Spec.Mqtt.str Spec.Mqtt.u16
  rw [List.length_nil, vbi_zero, show (CtrlPkt.publish.code <<< 4) = UInt8.ofNat (3 * 16 + 0) by decide]
  simp
  congr 1
  omega

theorem subscribe_fits (dbg : Bool) (filter : Bytes) (id : UInt16) (k : Nat) (h : filter.length ≤ 65532) :
    EmitsAt k (subscribeProg dbg filter id) (Spec.Mqtt.subscribe id.toNat filter (Spec.Mqtt.options 0 1 0 2)) := by
  have hl : (lenU16 filter.length).toNat = filter.length := by rw [lenU16_toNat]; omega
  have hn : (UInt16.ofNat filter.length + 3).toNat = filter.length + 3 := by
    rw [UInt16.toNat_add, UInt16.toNat_ofNat']; change (filter.length % 65536 + 3) % 65536 = _; omega
  unfold subscribeProg filterLen
  rw [if_neg (by change ¬ (_ ∧ _ ≤ filter.length % 65536 + 3); omega)]
  dsimp only
  refine EmitsAt.cast ((EmitsAt.writeAll k [(CtrlPkt.subscribe.code <<< 4) ||| 0b0010]).bind ((emits_vbi _ _ (by rw [u32_sum1]; omega)).bind ((EmitsAt.writeAll _ _).bind
    ((EmitsAt.writeAll _ _).bind ((EmitsAt.writeAll _ _).bind (EmitsAt.writeAll _ _)))))) rfl ?_
  rw [u32_sum1, hn, u16_toBe _ _ hl, hi_ofNat, lo_ofNat]
  unfold Spec.Mqtt.subscribe Spec.Mqtt.packet Spec.Mqtt.str Spec.Mqtt.u16
  rw [show ((CtrlPkt.subscribe.code <<< 4) ||| 0b0010) = UInt8.ofNat (8 * 16 + 2) by decide,
    show UInt8.ofNat (Spec.Mqtt.options 0 1 0 2) = 0b00100100 by decide]
  simp
  congr 1
  omega

theorem unsubscribe_fits (dbg : Bool) (filter : Bytes) (id : UInt16) (k : Nat) (h : filter.length ≤ 65533) :
    EmitsAt k (unsubscribeProg dbg filter id) (Spec.Mqtt.unsubscribe id.toNat filter) := by
  have hl : (lenU16 filter.length).toNat = filter.length := by rw [lenU16_toNat]; omega
  have hn : (UInt16.ofNat filter.length + 2).toNat = filter.length + 2 := by
    rw [UInt16.toNat_add, UInt16.toNat_ofNat']; change (filter.length % 65536 + 2) % 65536 = _; omega
  unfold unsubscribeProg filterLen
  rw [if_neg (by change ¬ (_ ∧ _ ≤ filter.length % 65536 + 2); omega)]
  dsimp only
  refine EmitsAt.cast ((EmitsAt.writeAll k [(CtrlPkt.unsubscribe.code <<< 4) ||| 0b0010]).bind ((emits_vbi _ _ (by rw [u32_sum1]; omega)).bind ((EmitsAt.writeAll _ _).bind
    ((EmitsAt.writeAll _ _).bind (EmitsAt.writeAll _ _))))) rfl ?_
  rw [u32_sum1, hn, u16_toBe _ _ hl, hi_ofNat, lo_ofNat]
  unfold Spec.Mqtt.unsubscribe Spec.Mqtt.packet Spec.Mqtt.str Spec.Mqtt.u16
  rw [show ((CtrlPkt.unsubscribe.code <<< 4) ||| 0b0010) = UInt8.ofNat (10 * 16 + 2) by decide]
  simp
  congr 1
  omega

/-- A filter that is too long is written in full or not at all. -/
theorem subscribe_long (dbg : Bool) (filter : Bytes) (id : UInt16) (k : Nat) :
    (subscribeProg dbg filter id = .throw .panic ∧ dbg = true) ∨
    ∃ bs, filter.length + 3 ≤ bs.length ∧ EmitsAt k (subscribeProg dbg filter id) bs := by
  unfold subscribeProg
  cases hf : filterLen dbg filter.length 3 with
  | error e =>
    unfold filterLen at hf
    split at hf
    · rename_i h; injection hf with hf; subst hf; exact .inl ⟨rfl, h.1⟩
    · simp at hf
  | ok n =>
    have := n.toNat_lt
    right
    dsimp only
    refine ⟨_, ?_, (EmitsAt.writeAll k [(CtrlPkt.subscribe.code <<< 4) ||| 0b0010]).bind ((emits_vbi _ _ (by rw [u32_sum1]; omega)).bind ((EmitsAt.writeAll _ _).bind
      ((EmitsAt.writeAll _ _).bind ((EmitsAt.writeAll _ _).bind (EmitsAt.writeAll _ _)))))⟩
    simp; omega

theorem unsubscribe_long (dbg : Bool) (filter : Bytes) (id : UInt16) (k : Nat) :
    (unsubscribeProg dbg filter id = .throw .panic ∧ dbg = true) ∨
    ∃ bs, filter.length + 2 ≤ bs.length ∧ EmitsAt k (unsubscribeProg dbg filter id) bs := by
  unfold unsubscribeProg
  cases hf : filterLen dbg filter.length 2 with
  | error e =>
    unfold filterLen at hf
    split at hf
    · rename_i h; injection hf with hf; subst hf; exact .inl ⟨rfl, h.1⟩
    · simp at hf
  | ok n =>
    have := n.toNat_lt
    right
    dsimp only
    refine ⟨_, ?_, (EmitsAt.writeAll k [(CtrlPkt.unsubscribe.code <<< 4) ||| 0b0010]).bind ((emits_vbi _ _ (by rw [u32_sum1]; omega)).bind ((EmitsAt.writeAll _ _).bind
      ((EmitsAt.writeAll _ _).bind (EmitsAt.writeAll _ _))))⟩
    simp; omega

theorem emits_connect (id : Option Bytes) (rx : UInt16) (k : Nat) (h : ∀ i, id = some i → i.length ≤ 23) :
    EmitsAt k (connectProg id rx) (Spec.Mqtt.connect 900 rx.toNat (id.getD [])) := by
  unfold connectProg
  have hrx := rx.toNat_lt
  cases id with
  | none =>
    dsimp only
    refine EmitsAt.cast (.bind (.writeAll _ _) (.nil _)) rfl ?_
    unfold Spec.Mqtt.connect Spec.Mqtt.packet Spec.Mqtt.str Spec.Mqtt.u16
    rw [hi_ofNat rx, lo_ofNat rx]
    have e1 : rx.toNat / 65536 = 0 := by omega
    rw [e1, Spec.Mqtt.vbi]
    simp [CtrlPkt.code]
    decide
  | some i =>
    have hi := h i rfl
    dsimp only
    refine EmitsAt.cast (.bind (.writeAll _ _) (.writeAll _ _)) rfl ?_
    unfold Spec.Mqtt.connect Spec.Mqtt.packet Spec.Mqtt.str Spec.Mqtt.u16
    rw [hi_ofNat rx, lo_ofNat rx]
    have e1 : rx.toNat / 65536 = 0 := by omega
    have e2 : i.length / 256 = 0 := by omega
    rw [e1, Spec.Mqtt.vbi, if_pos (by simp; omega)]
    simp [CtrlPkt.code, e2]
    exact ⟨by decide, by apply UInt8.toNat_inj.mp; simp; omega, by decide⟩

end Verif.Thm
