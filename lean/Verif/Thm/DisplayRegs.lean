import Verif.Model.DisplayRegs
import Verif.Spec.DisplayRegs
import Verif.Thm.LLTables
/-!
# C133: the text of a register
-/
namespace Verif.Thm
open Verif.Spec

/-- A word: no spaces. -/
def IsWord (w : List Char) : Prop := ∀ c ∈ w, c ≠ ' '

instance (w : List Char) : Decidable (IsWord w) := by unfold IsWord; infer_instance

theorem words_ne_nil (t : List Char) : words t ≠ [] := by
  cases t with
  | nil => simp [words]
  | cons c cs =>
    simp only [words]
    split
    · simp
    · split <;> simp

theorem words_word (w : List Char) (h : IsWord w) : words w = [w] := by
  induction w with
  | nil => rfl
  | cons c cs ih =>
    have hc : c ≠ ' ' := h c (by simp)
    have := ih (fun d hd => h d (by simp [hd]))
    simp only [words, if_neg hc, this]

theorem words_cons (w t : List Char) (h : IsWord w) : words (w ++ ' ' :: t) = w :: words t := by
  induction w with
  | nil => simp [words]
  | cons c cs ih =>
    have hc : c ≠ ' ' := h c (by simp)
    have := ih (fun d hd => h d (by simp [hd]))
    simp only [List.cons_append, words, if_neg hc, this]

theorem IsWord.snoc {w : List Char} (h : IsWord w) {c : Char} (hc : c ≠ ' ') : IsWord (w ++ [c]) := by
  intro d hd
  rcases List.mem_append.1 hd with hd | hd
  · exact h d hd
  · simp only [List.mem_singleton] at hd
    exact hd ▸ hc

theorem without_snoc (c : Char) (w : List Char) : without c (w ++ [c]) = some w := by simp [without]

/-- Two words at the head. -/
theorem words_field (f v t : List Char) (hf : IsWord f) (hv : IsWord v) :
    words (f ++ [':', ' '] ++ v ++ ' ' :: t) = (f ++ [':']) :: v :: words t := by
  have := words_cons (f ++ [':']) (v ++ ' ' :: t) (hf.snoc (by decide))
  rw [words_cons v t hv] at this
  simpa using this

theorem readFields_text (fs : List (List Char × List Char)) (hne : fs ≠ []) (h : ∀ p ∈ fs, IsWord p.1 ∧ IsWord p.2) :
    readFields (words (fieldsText fs ++ [' ', '}'])) = some fs ∧ 2 ≤ (words (fieldsText fs ++ [' ', '}'])).length := by
  induction fs with
  | nil => exact absurd rfl hne
  | cons p rest ih =>
    obtain ⟨f, v⟩ := p
    obtain ⟨hf, hv⟩ := h (f, v) (by simp)
    cases rest with
    | nil =>
      have := words_field f v ['}'] hf hv
      simp only [fieldsText]
      rw [show (f ++ [':', ' '] ++ v ++ [' ', '}']) = f ++ [':', ' '] ++ v ++ ' ' :: ['}'] from rfl, this]
      rw [words_word ['}'] (by decide)]
      constructor
      · simp [readFields, without_snoc]
      · simp
    | cons q qs =>
      obtain ⟨h1, h2⟩ := ih (by simp) (fun p hp => h p (by simp [hp]))
      have := words_field f (v ++ [',']) (fieldsText (q :: qs) ++ [' ', '}']) hf (hv.snoc (by decide))
      simp only [fieldsText]
      rw [show f ++ [':', ' '] ++ v ++ [',', ' '] ++ fieldsText (q :: qs) ++ [' ', '}'] =
        f ++ [':', ' '] ++ (v ++ [',']) ++ ' ' :: (fieldsText (q :: qs) ++ [' ', '}']) by simp, this]
      constructor
      · have hn : words (fieldsText (q :: qs) ++ [' ', '}']) ≠ [['}']] := fun e => by rw [e] at h2; simp at h2
        simp [readFields, without_snoc, hn, h1]
      · simp

/-- The reader inverts `debug_struct`, for every name and all fields that are words. -/
theorem readStruct_debugStruct (name : String) (fs : List (String × List Char)) (hn : IsWord name.toList) (hne : fs ≠ [])
    (h : ∀ p ∈ fs, IsWord p.1.toList ∧ IsWord p.2) :
    readStruct (debugStruct name fs) = some (name.toList, fs.map fun p => (p.1.toList, p.2)) := by
  have hf := (readFields_text (fs.map fun p => (p.1.toList, p.2)) (by simpa using hne) (by
    intro p hp
    obtain ⟨q, hq, rfl⟩ := List.mem_map.1 hp
    exact h q hq)).1
  unfold readStruct debugStruct
  rw [show name.toList ++ [' ', '{', ' '] ++ fieldsText (fs.map fun p => (p.1.toList, p.2)) ++ [' ', '}'] =
    name.toList ++ ' ' :: (['{'] ++ ' ' :: (fieldsText (fs.map fun p => (p.1.toList, p.2)) ++ [' ', '}'])) by simp]
  rw [words_cons _ _ hn, words_cons ['{'] _ (by decide)]
  simp [hf]

/-- The value of a field in a text. -/
theorem valueIn_debugStruct (name : String) (fs : List (String × List Char)) (hn : IsWord name.toList) (hne : fs ≠ [])
    (h : ∀ p ∈ fs, IsWord p.1.toList ∧ IsWord p.2) (field : String) :
    valueIn (debugStruct name fs) field = (fs.find? fun p => p.1 == field).map (·.2) := by
  have hb : ∀ s : String, (s.toList == field.toList) = (s == field) := by
    intro s
    by_cases e : s = field
    · subst e; simp
    · rw [beq_eq_false_iff_ne.2 e, beq_eq_false_iff_ne.2 (fun h => e (String.toList_inj.1 h))]
  unfold valueIn
  rw [readStruct_debugStruct name fs hn hne h]
  simp only [List.find?_map, Function.comp_def, hb, Option.map_map]

theorem word_bool (b : Bool) : IsWord (debugBool b) := by cases b <;> decide
theorem word_opmdc (m : OperationMode) : IsWord m.debug := by cases m <;> decide
theorem word_dpx (m : DuplexStatus) : IsWord m.debug := by cases m <;> decide
theorem word_spd (m : SpeedStatus) : IsWord m.debug := by cases m <;> decide
theorem word_lnk (m : LinkStatus) : IsWord m.debug := by cases m <;> decide

theorem word_protocol (r : SocketMode) : IsWord (debugProtocol r.protocol) := by
  have : ∀ x : UInt8, IsWord (debugProtocol (SocketMode.protocol ⟨x⟩)) := by apply forall_u8; decide +kernel
  exact this r.raw

theorem says_bool (b : Bool) : debugBool b = if b then "true".toList else "false".toList := by cases b <;> decide

/-- All names and values are words, one by one. -/
theorem fields_cons {n : String} {v : List Char} {fs : List (String × List Char)} (hn : IsWord n.toList) (hv : IsWord v)
    (h : ∀ p ∈ fs, IsWord p.1.toList ∧ IsWord p.2) : ∀ p ∈ (n, v) :: fs, IsWord p.1.toList ∧ IsWord p.2 := by
  intro p hp
  rcases List.mem_cons.1 hp with rfl | hp
  · exact ⟨hn, hv⟩
  · exact h p hp

section
local macro "fields_tac" : tactic => `(tactic|
  (repeat
    refine fields_cons (by decide) (by
      first
      | exact word_bool _
      | exact word_opmdc _
      | exact word_dpx _
      | exact word_spd _
      | exact word_lnk _
      | exact word_protocol _) ?_
   exact fun _ h => absurd h List.not_mem_nil))

/-- **C133** The text of the mode register says of each of its flags whether its bit is set. -/
theorem C133_Mode (r : Mode) :
    SaysBool r.display "wol_enabled" (bit r.raw 5) ∧
    SaysBool r.display "pb_enabled" (bit r.raw 4) ∧
    SaysBool r.display "pppoe_enabled" (bit r.raw 3) ∧
    SaysBool r.display "farp_enabled" (bit r.raw 1) := by
  have hv : ∀ field, valueIn r.display field = _ := fun field => valueIn_debugStruct "Mode" [("wol_enabled", debugBool r.wolEnabled), ("pb_enabled", debugBool r.pbEnabled), ("pppoe_enabled", debugBool r.pppoeEnabled), ("farp_enabled", debugBool r.farpEnabled)] (by decide) (by simp) (by fields_tac) field
  refine ⟨?_, ?_, ?_, ?_⟩
  · rw [SaysBool, ← C07_Mode_wolEnabled.1 r, ← says_bool, hv]; simp [List.find?]
  · rw [SaysBool, ← C07_Mode_pbEnabled.1 r, ← says_bool, hv]; simp [List.find?]
  · rw [SaysBool, ← C07_Mode_pppoeEnabled.1 r, ← says_bool, hv]; simp [List.find?]
  · rw [SaysBool, ← C07_Mode_farpEnabled.1 r, ← says_bool, hv]; simp [List.find?]

/-- C133 for the interrupt register. -/
theorem C133_Interrupt (r : Interrupt) :
    SaysBool r.display "conflict" (bit r.raw 7) ∧
    SaysBool r.display "unreach" (bit r.raw 6) ∧
    SaysBool r.display "pppoe" (bit r.raw 5) ∧
    SaysBool r.display "mp" (bit r.raw 4) := by
  have hv : ∀ field, valueIn r.display field = _ := fun field => valueIn_debugStruct "Interrupt" [("conflict", debugBool r.conflict), ("unreach", debugBool r.unreach), ("pppoe", debugBool r.pppoe), ("mp", debugBool r.mp)] (by decide) (by simp) (by fields_tac) field
  refine ⟨?_, ?_, ?_, ?_⟩
  · rw [SaysBool, ← C07_Interrupt_conflict.1 r, ← says_bool, hv]; simp [List.find?]
  · rw [SaysBool, ← C07_Interrupt_unreach.1 r, ← says_bool, hv]; simp [List.find?]
  · rw [SaysBool, ← C07_Interrupt_pppoe.1 r, ← says_bool, hv]; simp [List.find?]
  · rw [SaysBool, ← C07_Interrupt_mp.1 r, ← says_bool, hv]; simp [List.find?]

/-- C133 for the socket interrupt register. -/
theorem C133_SocketInterrupt (r : SocketInterrupt) :
    SaysBool r.display "con_raised" (bit r.raw 0) ∧
    SaysBool r.display "discon_raised" (bit r.raw 1) ∧
    SaysBool r.display "recv_raised" (bit r.raw 2) ∧
    SaysBool r.display "timeout_raised" (bit r.raw 3) ∧
    SaysBool r.display "sendok_raised" (bit r.raw 4) := by
  have hv : ∀ field, valueIn r.display field = _ := fun field => valueIn_debugStruct "SocketInterrupt" [("con_raised", debugBool r.conRaised), ("discon_raised", debugBool r.disconRaised), ("recv_raised", debugBool r.recvRaised), ("timeout_raised", debugBool r.timeoutRaised), ("sendok_raised", debugBool r.sendokRaised)] (by decide) (by simp) (by fields_tac) field
  refine ⟨?_, ?_, ?_, ?_, ?_⟩
  · rw [SaysBool, ← C07_SocketInterrupt_con.1 r, ← says_bool, hv]; simp [List.find?]
  · rw [SaysBool, ← C07_SocketInterrupt_discon.1 r, ← says_bool, hv]; simp [List.find?]
  · rw [SaysBool, ← C07_SocketInterrupt_recv.1 r, ← says_bool, hv]; simp [List.find?]
  · rw [SaysBool, ← C07_SocketInterrupt_timeout.1 r, ← says_bool, hv]; simp [List.find?]
  · rw [SaysBool, ← C07_SocketInterrupt_sendok.1 r, ← says_bool, hv]; simp [List.find?]

/-- C133 for the mask of the socket interrupts: an interrupt is masked if its bit is clear. -/
theorem C133_SocketInterruptMask (r : SocketInterruptMask) :
    SaysBool r.display "con_masked" (!bit r.raw 0) ∧
    SaysBool r.display "discon_masked" (!bit r.raw 1) ∧
    SaysBool r.display "recv_masked" (!bit r.raw 2) ∧
    SaysBool r.display "timeout_masked" (!bit r.raw 3) ∧
    SaysBool r.display "sendok_masked" (!bit r.raw 4) := by
  have hv : ∀ field, valueIn r.display field = _ := fun field => valueIn_debugStruct "SocketInterruptMask" [("con_masked", debugBool r.conMasked), ("discon_masked", debugBool r.disconMasked), ("recv_masked", debugBool r.recvMasked), ("timeout_masked", debugBool r.timeoutMasked), ("sendok_masked", debugBool r.sendokMasked)] (by decide) (by simp) (by fields_tac) field
  refine ⟨?_, ?_, ?_, ?_, ?_⟩
  · rw [SaysBool, ← C07_SocketInterruptMask_con.1 r, Bool.not_not, ← says_bool, hv]; simp [List.find?]
  · rw [SaysBool, ← C07_SocketInterruptMask_discon.1 r, Bool.not_not, ← says_bool, hv]; simp [List.find?]
  · rw [SaysBool, ← C07_SocketInterruptMask_recv.1 r, Bool.not_not, ← says_bool, hv]; simp [List.find?]
  · rw [SaysBool, ← C07_SocketInterruptMask_timeout.1 r, Bool.not_not, ← says_bool, hv]; simp [List.find?]
  · rw [SaysBool, ← C07_SocketInterruptMask_sendok.1 r, Bool.not_not, ← says_bool, hv]; simp [List.find?]

theorem opmdc_text (r : PhyCfg) : r.opmdc.debug = (operationModeName (r.raw.toNat / 8 % 8)).toList := by
  have : ∀ x : UInt8, (PhyCfg.opmdc ⟨x⟩).debug = (operationModeName (x.toNat / 8 % 8)).toList := by apply forall_u8; decide +kernel
  exact this r.raw

theorem dpx_text (r : PhyCfg) : r.dpx.debug = (if bit r.raw 2 then "Full" else "Half").toList := by
  have : ∀ x : UInt8, (PhyCfg.dpx ⟨x⟩).debug = (if bit x 2 then "Full" else "Half").toList := by apply forall_u8; decide +kernel
  exact this r.raw

theorem spd_text (r : PhyCfg) : r.spd.debug = (if bit r.raw 1 then "Mbps100" else "Mbps10").toList := by
  have : ∀ x : UInt8, (PhyCfg.spd ⟨x⟩).debug = (if bit x 1 then "Mbps100" else "Mbps10").toList := by apply forall_u8; decide +kernel
  exact this r.raw

theorem lnk_text (r : PhyCfg) : r.lnk.debug = (if bit r.raw 0 then "Up" else "Down").toList := by
  have : ∀ x : UInt8, (PhyCfg.lnk ⟨x⟩).debug = (if bit x 0 then "Up" else "Down").toList := by apply forall_u8; decide +kernel
  exact this r.raw

theorem protocol_text (r : SocketMode) : debugProtocol r.protocol = (protocolName (r.raw.toNat % 16)).toList := by
  have : ∀ x : UInt8, debugProtocol (SocketMode.protocol ⟨x⟩) = (protocolName (x.toNat % 16)).toList := by apply forall_u8; decide +kernel
  exact this r.raw

/-- C133 for the PHY configuration: the source of the operation mode, the mode, and the state of the link. -/
theorem C133_PhyCfg (r : PhyCfg) :
    SaysBool r.display "opmd" (bit r.raw 6) ∧
    Says r.display "opmdc" (operationModeName (r.raw.toNat / 8 % 8)) ∧
    Says r.display "dpx" (if bit r.raw 2 then "Full" else "Half") ∧
    Says r.display "spd" (if bit r.raw 1 then "Mbps100" else "Mbps10") ∧
    Says r.display "lnk" (if bit r.raw 0 then "Up" else "Down") := by
  have hv : ∀ field, valueIn r.display field = _ := fun field => valueIn_debugStruct "PhyCfg" [("opmd", debugBool r.opmd), ("opmdc", r.opmdc.debug), ("dpx", r.dpx.debug), ("spd", r.spd.debug), ("lnk", r.lnk.debug)] (by decide) (by simp) (by fields_tac) field
  refine ⟨?_, ?_, ?_, ?_, ?_⟩
  · rw [SaysBool, ← C07_PhyCfg_opmd.1 r, ← says_bool, hv]; simp [List.find?]
  · rw [Says, ← opmdc_text r, hv]; simp [List.find?]
  · rw [Says, ← dpx_text r, hv]; simp [List.find?]
  · rw [Says, ← spd_text r, hv]; simp [List.find?]
  · rw [Says, ← lnk_text r, hv]; simp [List.find?]

/-- C133 for the socket mode: the protocol, and for each flag its bit; flags of different protocols share bits. -/
theorem C133_SocketMode (r : SocketMode) :
    Says r.display "protocol" (protocolName (r.raw.toNat % 16)) ∧
    SaysBool r.display "multi_enabled" (bit r.raw 7) ∧
    SaysBool r.display "mfen_enabled" (bit r.raw 7) ∧
    SaysBool r.display "bcastb_enabled" (bit r.raw 6) ∧
    SaysBool r.display "nd_enabled" (bit r.raw 5) ∧
    SaysBool r.display "mc" (bit r.raw 5) ∧
    SaysBool r.display "mmb_enabled" (bit r.raw 5) ∧
    SaysBool r.display "ucastb_enabled" (bit r.raw 4) ∧
    SaysBool r.display "mip6b_enabled" (bit r.raw 4) := by
  have hv : ∀ field, valueIn r.display field = _ := fun field => valueIn_debugStruct "SocketMode" [("protocol", debugProtocol r.protocol), ("multi_enabled", debugBool r.multiEnabled), ("mfen_enabled", debugBool r.mfenEnabled), ("bcastb_enabled", debugBool r.bcastbEnabled), ("nd_enabled", debugBool r.ndEnabled), ("mc", debugBool r.mc), ("mmb_enabled", debugBool r.mmbEnabled), ("ucastb_enabled", debugBool r.ucastbEnabled), ("mip6b_enabled", debugBool r.mip6bEnabled)] (by decide) (by simp) (by fields_tac) field
  refine ⟨?_, ?_, ?_, ?_, ?_, ?_, ?_, ?_, ?_⟩
  · rw [Says, ← protocol_text r, hv]; simp [List.find?]
  · rw [SaysBool, ← C07_SocketMode_multiEnabled.1 r, ← says_bool, hv]; simp [List.find?]
  · rw [SaysBool, ← C07_SocketMode_mfenEnabled.1 r, ← says_bool, hv]; simp [List.find?]
  · rw [SaysBool, ← C07_SocketMode_bcastbEnabled.1 r, ← says_bool, hv]; simp [List.find?]
  · rw [SaysBool, ← C07_SocketMode_ndEnabled.1 r, ← says_bool, hv]; simp [List.find?]
  · rw [SaysBool, ← C07_SocketMode_mc.1 r, ← says_bool, hv]; simp [List.find?]
  · rw [SaysBool, ← C07_SocketMode_mmbEnabled.1 r, ← says_bool, hv]; simp [List.find?]
  · rw [SaysBool, ← C07_SocketMode_ucastbEnabled.1 r, ← says_bool, hv]; simp [List.find?]
  · rw [SaysBool, ← C07_SocketMode_mip6bEnabled.1 r, ← says_bool, hv]; simp [List.find?]

end

theorem saysBool_unique {t : List Char} {field : String} {a b : Bool} (ha : SaysBool t field a) (hb : SaysBool t field b) : a = b := by
  have := ha.symm.trans hb
  revert this
  cases a <;> cases b <;> decide

theorem protocolName_inj : ∀ a b : Fin 16, (protocolName a.val).toList = (protocolName b.val).toList → a = b := by decide +kernel

/-- C133: the text of the socket mode determines the register. -/
theorem C133_SocketMode_injective (r s : SocketMode) (h : r.display = s.display) : r = s := by
  obtain ⟨hp, h7, _, h6, h5, _, _, h4, _⟩ := C133_SocketMode r
  obtain ⟨kp, k7, _, k6, k5, _, _, k4, _⟩ := C133_SocketMode s
  rw [h] at hp h7 h6 h5 h4
  have ep := congrArg Fin.val (protocolName_inj ⟨r.raw.toNat % 16, by omega⟩ ⟨s.raw.toNat % 16, by omega⟩
    (Option.some.inj (hp.symm.trans kp)))
  have e7 := saysBool_unique h7 k7
  have e6 := saysBool_unique h6 k6
  have e5 := saysBool_unique h5 k5
  have e4 := saysBool_unique h4 k4
  simp only [bit, Nat.testBit_eq_decide_div_mod_eq, decide_eq_decide] at e7 e6 e5 e4
  have hr := r.raw.toNat_lt
  have hs := s.raw.toNat_lt
  cases r; cases s
  simp only [SocketMode.mk.injEq]
  apply UInt8.toNat_inj.1
  simp only at *
  omega

/-- A register with every second flag set. -/
example : (⟨0b00101000⟩ : Mode).display = "Mode { wol_enabled: true, pb_enabled: false, pppoe_enabled: true, farp_enabled: false }".toList := by
  decide

example : (⟨0b10111101⟩ : PhyCfg).display = "PhyCfg { opmd: false, opmdc: Auto, dpx: Full, spd: Mbps10, lnk: Up }".toList := by decide

/-- A code that is no protocol. -/
example : Says (⟨0b01000011⟩ : SocketMode).display "protocol" "Err(3)" := (C133_SocketMode _).1

/-- The texts of two registers that differ in one bit. -/
example : valueIn (⟨0b00100⟩ : SocketInterrupt).display "recv_raised" ≠ valueIn (⟨0b00000⟩ : SocketInterrupt).display "recv_raised" := by
  rw [(C133_SocketInterrupt ⟨0b00100⟩).2.2.1, (C133_SocketInterrupt ⟨0b00000⟩).2.2.1]
  decide

end Verif.Thm
