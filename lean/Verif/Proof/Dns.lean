import Verif.Proof.Prog
import Verif.Model.Dns
import Verif.Spec.Dns
namespace Verif
open Hl Spec Dns Spec.Dns

/-- The two bytes at `p`. -/
theorem take2_drop (m : Bytes) (p : Nat) :
    (m.drop p).take 2 = (m[p]?.toList ++ (if (m[p]?).isSome then m[p + 1]?.toList else [])) := by
  rcases h : m.drop p with _ | ⟨a, _ | ⟨b, r⟩⟩
  · have : m[p]? = none := by rw [← List.head?_drop, h]; rfl
    rw [this]; rfl
  · have h1 : m[p]? = some a := by rw [← List.head?_drop, h]; rfl
    have h2 : m[p + 1]? = none := by
      have := List.getElem?_drop (xs := m) (i := p) (j := 1)
      rw [← this, h]; rfl
    rw [h1, h2]; rfl
  · have h1 : m[p]? = some a := by rw [← List.head?_drop, h]; rfl
    have h2 : m[p + 1]? = some b := by
      have := List.getElem?_drop (xs := m) (i := p) (j := 1)
      rw [← this, h]; rfl
    rw [h1, h2]; rfl

theorem ptr_mask (x : UInt16) : (x &&& 0xC000 ≠ 0 ↔ 16384 ≤ x.toNat) ∧ (x &&& ~~~0xC000).toNat = x.toNat % 16384 := by
  have hx := x.toNat_lt
  constructor
  · have e : (x &&& 0xC000).toNat = x.toNat &&& 49152 := UInt16.toNat_and _ _
    constructor
    · intro h
      refine Nat.le_of_not_lt fun hlt => h (u16_ext ?_)
      rw [e]
      apply Nat.eq_of_testBit_eq
      intro i
      rw [Nat.testBit_and]
      by_cases hi : i < 14
      · have : Nat.testBit 49152 i = false := by
          have : ∀ j : Fin 14, Nat.testBit 49152 j = false := by decide
          exact this ⟨i, hi⟩
        rw [this]; simp
      · rw [Nat.testBit_lt_two_pow (i := i) (x := x.toNat)
          (Nat.lt_of_lt_of_le (show x.toNat < 2 ^ 14 by omega) (Nat.pow_le_pow_right (by omega) (by omega)))]
        simp
    · intro hle h
      have h0 : x.toNat &&& 49152 = 0 := by rw [← e, h]; rfl
      have h1 : (x.toNat &&& 49152) >>> 14 = 0 := by rw [h0]; rfl
      rw [Nat.shiftRight_and_distrib, Nat.shiftRight_eq_div_pow, show 49152 >>> 14 = 2 ^ 2 - 1 by rfl,
        Nat.and_two_pow_sub_one_eq_mod] at h1
      omega
  · have : (x &&& ~~~0xC000).toNat = x.toNat &&& 16383 := UInt16.toNat_and _ _
    rw [this, show 16383 = 2 ^ 14 - 1 by rfl, Nat.and_two_pow_sub_one_eq_mod]

theorem len_mask (b : UInt8) :
    (b &&& 0x3F).toNat = b.toNat % 64 ∧ ((b &&& 0x3F).toInt8.toInt16).toInt = (b.toNat % 64 : Nat) :=
  forall_u8 (p := fun b => (b &&& 0x3F).toNat = b.toNat % 64 ∧ ((b &&& 0x3F).toInt8.toInt16).toInt = (b.toNat % 64 : Nat))
    (by decide +kernel) b

/-- The name read so far, extended by labels. -/
def joined : Bytes → List Bytes → Bytes
  | acc, [] => acc
  | acc, l :: ls => joined (if acc = [] then l else acc ++ 46 :: l) ls

theorem joined_cons (l : Bytes) (hl : l ≠ []) (ls : List Bytes) (h : ∀ x ∈ ls, x ≠ []) :
    joined l ls = [46].intercalate (l :: ls) := by
  induction ls generalizing l with
  | nil => simp [joined]
  | cons x xs ih =>
    show joined (if l = [] then x else l ++ 46 :: x) xs = _
    rw [if_neg hl, ih _ (by simp) (fun y hy => h y (List.mem_cons_of_mem _ hy))]
    cases xs with
    | nil => simp [List.intercalate]
    | cons y ys => simp [List.intercalate]

theorem joined_nil (ls : List Bytes) (h : ∀ x ∈ ls, x ≠ []) : joined [] ls = [46].intercalate ls := by
  cases ls with
  | nil => rfl
  | cons l ls =>
    show joined (if ([] : Bytes) = [] then l else _) ls = _
    rw [if_pos rfl]
    exact joined_cons l (h l (by simp)) ls (fun y hy => h y (List.mem_cons_of_mem _ hy))

theorem joined_length (acc : Bytes) (ls : List Bytes) : acc.length ≤ (joined acc ls).length := by
  induction ls generalizing acc with
  | nil => exact Nat.le_refl _
  | cons l ls ih =>
    refine Nat.le_trans ?_ (ih _)
    split
    · rename_i h; simp [h]
    · simp

theorem NameAt.labels {m p ls stop n} (h : NameAt m p ls stop n) : ∀ l ∈ ls, l ≠ [] := by
  induction h with
  | root => simp
  | label h1 h2 h3 h4 _ ih =>
    intro l hl
    rcases List.mem_cons.mp hl with rfl | hl
    · intro h
      have := congrArg List.length h
      rw [List.length_take, List.length_drop] at this
      simp only [List.length_nil] at this
      omega
    · exact ih l hl
  | pointer _ _ _ _ ih => exact ih

theorem ofNat16_ne_zero {n : Nat} (h : 0 < n) (h2 : n < 65536) : UInt16.ofNat n ≠ 0 := by
  intro h3
  have := congrArg UInt16.toNat h3
  rw [ofNat16_toNat (by omega)] at this
  simp at this; omega

/-- What `read_labels` returns for the labels gathered. -/
def nameResult (cap : Nat) (name : Bytes) : Option Bytes := if name.length ≤ cap then fromUtf8 name else none

theorem getElem?_lt {m : Bytes} {p : Nat} {a : UInt8} (h : m[p]? = some a) : p < m.length :=
  (List.getElem?_eq_some_iff.mp h).1

/-- What one pass of the loop does with a label byte. -/
theorem run_labelStep (m : Bytes) (p q cap idx L : Nat) (buf : Bytes) (seekTo : UInt16) (b0 : UInt8)
    (hL : b0.toNat % 64 = L) (hp : q = p + 1) (hq : q ≤ m.length) (k : Nat → Bytes → RProg (Option Bytes)) :
    (labelStep cap idx buf seekTo b0 k).run cursorOps ⟨m, q⟩ =
      if L = 0 then (labelsDone cap idx buf seekTo).run cursorOps ⟨m, p⟩
      else if p + L ≤ m.length then
        (k (dotIdx idx + L) (if dotIdx idx + L ≤ cap then dotBuf cap idx buf ++ (m.drop p).take L
          else dotBuf cap idx buf)).run cursorOps ⟨m, p + L⟩
      else (.error .unexpectedEof, ⟨m, p⟩) := by
  subst hp
  obtain ⟨hm1, hm2⟩ := len_mask b0
  unfold labelStep
  rw [RProg.bind_ok (cur_seekCurrent (q := p) (by show ((p + 1 : Nat) : Int) + -1 = _; omega) (by omega))]
  dsimp only
  have hz : (b0 &&& 0x3F = 0) = (L = 0) := by
    apply propext
    constructor
    · intro h; rw [h] at hm1; exact hL.symm.trans hm1.symm
    · intro h; apply UInt8.toNat_inj.mp; rw [hm1, hL, h]; rfl
  rw [hL] at hm1 hm2
  by_cases hb : L = 0
  · rw [if_pos (by rw [hz]; exact hb), if_pos hb]
  · rw [if_neg (by rw [hz]; exact hb), if_neg hb, hm1]
    by_cases hc : dotIdx idx + L ≤ cap
    · rw [if_pos hc, if_pos hc]
      by_cases hl : p + L ≤ m.length
      · rw [if_pos hl, RProg.bind_ok (cur_readExact (by omega))]
      · rw [if_neg hl, RProg.bind_error (cur_readExact_eof (by omega))]
    · rw [if_neg hc, if_neg hc]
      by_cases hl : p + L ≤ m.length
      · rw [if_pos hl, RProg.bind_ok (cur_seekCurrent (by rw [hm2]; rfl) hl)]
      · rw [if_neg hl, RProg.bind_error (cur_seekCurrent_eof (by rw [hm2]; omega))]

/-- A pass of the loop at a pointer. -/
theorem run_loop_ptr {m : Bytes} {p : Nat} {a b : UInt8} (ha : m[p]? = some a) (hb : m[p + 1]? = some b) (h : 64 ≤ a.toNat)
    (cap fuel idx : Nat) (buf : Bytes) (seekTo : UInt16) :
    (readLabelsLoop cap (fuel + 1) idx buf seekTo).run cursorOps ⟨m, p⟩ =
      if (a.toNat * 256 + b.toNat) % 16384 ≤ m.length then
        (readLabelsLoop cap fuel idx buf (if seekTo = 0 then UInt16.ofNat (p + 2) else seekTo)).run cursorOps
          ⟨m, (a.toNat * 256 + b.toNat) % 16384⟩
      else (.error .unexpectedEof, ⟨m, p + 2⟩) := by
  have hx := take2_drop m p
  rw [ha, hb] at hx
  rw [readLabelsLoop, RProg.bind_ok (cur_read 2 m p), hx]
  show (if be16 a b &&& 0xC000 ≠ 0 then _ else _ : RProg (Option Bytes)).run cursorOps ⟨m, p + 2⟩ = _
  obtain ⟨h1, h2⟩ := ptr_mask (be16 a b)
  rw [be16_toNat] at h1 h2
  rw [if_pos (h1.mpr (by omega)), RProg.bind_ok (cur_streamPosition m (p + 2))]
  by_cases hl : (a.toNat * 256 + b.toNat) % 16384 ≤ m.length
  · rw [if_pos hl, RProg.bind_ok (cur_seekStart (by rw [h2]; exact hl)), h2]
  · rw [if_neg hl, RProg.bind_error (cur_seekStart_eof (by rw [h2]; exact hl))]

/-- A pass of the loop at a length byte. -/
theorem run_loop_label {m : Bytes} {p : Nat} {a b : UInt8} (ha : m[p]? = some a) (hb : m[p + 1]? = some b) (h : a.toNat < 64)
    (cap fuel idx : Nat) (buf : Bytes) (seekTo : UInt16) :
    (readLabelsLoop cap (fuel + 1) idx buf seekTo).run cursorOps ⟨m, p⟩ =
      if a.toNat = 0 then (labelsDone cap idx buf seekTo).run cursorOps ⟨m, p + 1⟩
      else if p + 1 + a.toNat ≤ m.length then
        (readLabelsLoop cap fuel (dotIdx idx + a.toNat)
          (if dotIdx idx + a.toNat ≤ cap then dotBuf cap idx buf ++ (m.drop (p + 1)).take a.toNat
            else dotBuf cap idx buf) seekTo).run cursorOps ⟨m, p + 1 + a.toNat⟩
      else (.error .unexpectedEof, ⟨m, p + 1⟩) := by
  have hx := take2_drop m p
  rw [ha, hb] at hx
  have hlt := getElem?_lt hb
  rw [readLabelsLoop, RProg.bind_ok (cur_read 2 m p), hx]
  show (if be16 a b &&& 0xC000 ≠ 0 then _ else _ : RProg (Option Bytes)).run cursorOps ⟨m, p + 2⟩ = _
  have h1 := (ptr_mask (be16 a b)).1
  rw [be16_toNat] at h1
  have := b.toNat_lt
  rw [if_neg (fun h => by have := h1.mp h; omega),
    run_labelStep m (p + 1) (p + 2) cap idx a.toNat buf seekTo a (by omega) rfl (by omega)]

/-- A pass of the loop at the last byte of the message. -/
theorem run_loop_last {m : Bytes} {p : Nat} {a : UInt8} (ha : m[p]? = some a) (hb : m[p + 1]? = none)
    (cap fuel idx : Nat) (buf : Bytes) (seekTo : UInt16) :
    (readLabelsLoop cap (fuel + 1) idx buf seekTo).run cursorOps ⟨m, p⟩ =
      if a.toNat % 64 = 0 then (labelsDone cap idx buf seekTo).run cursorOps ⟨m, p⟩
      else if p + a.toNat % 64 ≤ m.length then
        (readLabelsLoop cap fuel (dotIdx idx + a.toNat % 64)
          (if dotIdx idx + a.toNat % 64 ≤ cap then dotBuf cap idx buf ++ (m.drop p).take (a.toNat % 64)
            else dotBuf cap idx buf) seekTo).run cursorOps ⟨m, p + a.toNat % 64⟩
      else (.error .unexpectedEof, ⟨m, p⟩) := by
  have hx := take2_drop m p
  rw [ha, hb] at hx
  have hlt := getElem?_lt ha
  rw [readLabelsLoop, RProg.bind_ok (cur_read 2 m p), hx]
  exact run_labelStep m p (p + 1) cap idx _ buf seekTo a rfl rfl (by omega) _

/-- A pass of the loop at the end of the message. -/
theorem run_loop_eof {m : Bytes} {p : Nat} (ha : m[p]? = none)
    (cap fuel idx : Nat) (buf : Bytes) (seekTo : UInt16) :
    (readLabelsLoop cap (fuel + 1) idx buf seekTo).run cursorOps ⟨m, p⟩ = (.error .unexpectedEof, ⟨m, p⟩) := by
  have hx := take2_drop m p
  rw [ha] at hx
  rw [readLabelsLoop, RProg.bind_ok (cur_read 2 m p), hx]
  rfl

theorem run_labelsDone (m : Bytes) (q cap idx : Nat) (buf : Bytes) (seekTo : UInt16) (hs : seekTo.toNat ≤ m.length) :
    (labelsDone cap idx buf seekTo).run cursorOps ⟨m, q⟩
      = (.ok (if idx ≤ cap then fromUtf8 (buf.take idx) else none), ⟨m, if seekTo ≠ 0 then seekTo.toNat else q⟩) := by
  unfold labelsDone
  by_cases h0 : seekTo ≠ 0
  · rw [if_pos h0, if_pos h0, RProg.bind_ok (cur_seekStart hs)]; rfl
  · rw [if_neg h0, if_neg h0]; rfl

theorem loop_name {m : Bytes} {p : Nat} {ls : List Bytes} {stop n : Nat} (h : NameAt m p ls stop n)
    (hm : m.length < 65536) (cap fuel : Nat) (hf : n ≤ fuel) (acc buf : Bytes) (seekTo : UInt16)
    (hb : acc.length ≤ cap → buf = acc) (hs : seekTo.toNat ≤ m.length) (he : seekTo ≠ 0 ∨ stop < m.length) :
    (readLabelsLoop cap fuel acc.length buf seekTo).run cursorOps ⟨m, p⟩
      = (.ok (nameResult cap (joined acc ls)), ⟨m, if seekTo ≠ 0 then seekTo.toNat else stop⟩) := by
  induction h generalizing fuel acc buf seekTo with
  | @root p h1 =>
    obtain ⟨fuel, rfl⟩ : ∃ f, fuel = f + 1 := ⟨fuel - 1, by omega⟩
    have hp := getElem?_lt h1
    have hres : (if acc.length ≤ cap then fromUtf8 (buf.take acc.length) else none) = nameResult cap (joined acc []) := by
      unfold nameResult joined
      split
      · rename_i hc; rw [hb hc, List.take_length]
      · rfl
    by_cases h2 : p + 1 < m.length
    · rw [run_loop_label h1 (List.getElem?_eq_getElem h2) (by decide), if_pos (show UInt8.toNat 0 = 0 from rfl), run_labelsDone _ _ _ _ _ _ hs, hres]
    · rw [run_loop_last h1 (List.getElem?_eq_none (by omega)), if_pos (show UInt8.toNat 0 % 64 = 0 from rfl), run_labelsDone _ _ _ _ _ _ hs, hres]
      have hne : seekTo ≠ 0 := he.resolve_right h2
      rw [if_pos hne, if_pos hne]
  | @label p b ls stop n h1 h2 h3 h4 hn ih =>
    obtain ⟨fuel, rfl⟩ : ∃ f, fuel = f + 1 := ⟨fuel - 1, by omega⟩
    have hlt : p + 1 < m.length := by omega
    have hll : ((m.drop (p + 1)).take b.toNat).length = b.toNat := by
      rw [List.length_take, List.length_drop]; omega
    have hidx : dotIdx acc.length + b.toNat
        = (if acc = [] then (m.drop (p + 1)).take b.toNat else acc ++ 46 :: (m.drop (p + 1)).take b.toNat).length := by
      unfold dotIdx
      by_cases ha : acc = []
      · rw [if_pos ha, ha, hll]; simp
      · rw [if_neg ha, if_pos (by rw [Ne, List.length_eq_zero_iff]; exact ha)]
        rw [List.length_append, List.length_cons, hll]; omega
    rw [run_loop_label h1 (List.getElem?_eq_getElem hlt) (by omega), if_neg (by omega), if_pos h4, hidx]
    refine (ih fuel (by omega) _ _ seekTo ?_ hs he).trans rfl
    intro hc
    rw [if_pos hc]
    rw [← hidx] at hc
    have hac : acc.length ≤ cap := by unfold dotIdx at hc; split at hc <;> omega
    rw [hb hac]
    unfold dotBuf dotIdx at *
    by_cases ha : acc = []
    · rw [if_pos ha, ha]; simp
    · have hne : acc.length ≠ 0 := by rw [Ne, List.length_eq_zero_iff]; exact ha
      rw [if_pos hne] at hc
      rw [if_neg ha, if_pos ⟨hne, by omega⟩]
      simp
  | @pointer p a b ls stop n h1 h2 h3 hn ih =>
    obtain ⟨fuel, rfl⟩ : ∃ f, fuel = f + 1 := ⟨fuel - 1, by omega⟩
    have hlt := getElem?_lt h3
    have hal := a.toNat_lt
    have hbl := b.toNat_lt
    have htgt : (a.toNat * 256 + b.toNat) % 16384 = (a.toNat - 192) * 256 + b.toNat := by omega
    have hle : (a.toNat - 192) * 256 + b.toNat ≤ m.length := by
      cases hn with
      | root h => exact Nat.le_of_lt (getElem?_lt h)
      | label h => exact Nat.le_of_lt (getElem?_lt h)
      | pointer h => exact Nat.le_of_lt (getElem?_lt h)
    have hp2 : (UInt16.ofNat (p + 2)).toNat = p + 2 := ofNat16_toNat (by omega)
    have hp0 : UInt16.ofNat (p + 2) ≠ 0 := ofNat16_ne_zero (by omega) (by omega)
    rw [run_loop_ptr h1 h3 (by omega), htgt, if_pos hle]
    by_cases h0 : seekTo = 0
    · rw [if_pos h0, ih fuel (by omega) acc buf _ hb (by rw [hp2]; omega) (.inl hp0), if_pos hp0, if_neg (by simp [h0]), hp2]
    · rw [if_neg h0, ih fuel (by omega) acc buf _ hb hs (.inl h0), if_pos h0, if_pos h0]

theorem drop_take2 {m : Bytes} {p : Nat} (h : 2 ≤ m.length - p) : (m.drop p).take 2 = [m.getD p 0, m.getD (p + 1) 0] := by
  rw [take2_drop, List.getElem?_eq_getElem (show p < m.length by omega), List.getElem?_eq_getElem (show p + 1 < m.length by omega)]
  simp [List.getD_eq_getElem?_getD, List.getElem?_eq_getElem (show p < m.length by omega),
    List.getElem?_eq_getElem (show p + 1 < m.length by omega)]

theorem drop_take4 {m : Bytes} {p : Nat} (h : 4 ≤ m.length - p) :
    (m.drop p).take 4 = [m.getD p 0, m.getD (p + 1) 0, m.getD (p + 2) 0, m.getD (p + 3) 0] := by
  have : (m.drop p).take 4 = (m.drop p).take 2 ++ (m.drop (p + 2)).take 2 := by
    rw [← List.drop_drop, ← List.take_add]
  rw [this, drop_take2 (by omega), drop_take2 (by omega)]; rfl

theorem run_readU16 {m : Bytes} {p : Nat} (h : 2 ≤ m.length - p) :
    readU16.run cursorOps ⟨m, p⟩ = (.ok (UInt16.ofNat (word m p)), ⟨m, p + 2⟩) := by
  unfold readU16
  rw [RProg.bind_ok (cur_readExact h), drop_take2 h]
  show ((Except.ok (be16 _ _), (⟨m, p + 2⟩ : Cursor)) : Except Err UInt16 × Cursor) = _
  congr 2
  apply u16_ext
  unfold word num
  have h1 := (m.getD p 0).toNat_lt
  have h2 := (m.getD (p + 1) 0).toNat_lt
  rw [be16_toNat, ofNat16_toNat (by omega)]

theorem word_lt (m : Bytes) (p : Nat) : word m p < 65536 := by
  unfold word num
  have h1 := (m.getD p 0).toNat_lt
  have h2 := (m.getD (p + 1) 0).toNat_lt
  omega

theorem run_readU32 {m : Bytes} {p : Nat} (h : 4 ≤ m.length - p) :
    ∃ v, readU32.run cursorOps ⟨m, p⟩ = (.ok v, ⟨m, p + 4⟩) ∧ v.toNat = long m p := by
  unfold readU32
  rw [RProg.bind_ok (cur_readExact h), drop_take4 h]
  refine ⟨_, rfl, ?_⟩
  rw [be32_toNat]
  unfold long word num
  rw [show p + 2 + 1 = p + 3 from rfl]
  omega

theorem readU16_inv {m : Bytes} {p : Nat} {v : UInt16} {c : Cursor} (h : readU16.run cursorOps ⟨m, p⟩ = (.ok v, c)) :
    2 ≤ m.length - p ∧ v.toNat = word m p ∧ c = ⟨m, p + 2⟩ := by
  by_cases h2 : 2 ≤ m.length - p
  · rw [run_readU16 h2] at h
    injection h with e1 e2
    injection e1 with e1
    exact ⟨h2, by rw [← e1, ofNat16_toNat (by have := word_lt m p; omega)], e2.symm⟩
  · unfold readU16 at h
    rw [RProg.bind_error (cur_readExact_eof h2)] at h
    exact absurd h nofun

theorem readU32_inv {m : Bytes} {p : Nat} {v : UInt32} {c : Cursor} (h : readU32.run cursorOps ⟨m, p⟩ = (.ok v, c)) :
    4 ≤ m.length - p ∧ v.toNat = long m p ∧ c = ⟨m, p + 4⟩ := by
  by_cases h2 : 4 ≤ m.length - p
  · obtain ⟨v', h3, h4⟩ := run_readU32 h2
    rw [h3] at h
    injection h with e1 e2
    injection e1 with e1
    exact ⟨h2, by rw [← e1, h4], e2.symm⟩
  · unfold readU32 at h
    rw [RProg.bind_error (cur_readExact_eof h2)] at h
    exact absurd h nofun

end Verif
