import Verif.Proof.Prog
import Verif.Proof.Dns
import Verif.Model.Dhcp
import Verif.Spec.Dhcp
/-!
# The option scanner of the DHCP client
-/
namespace Verif
open Hl Spec Dhcp Spec.Dhcp

/-! ## The specification -/

theorem items_fuel (n : Nat) : ∀ (m pos : Nat) (bs : Bytes), bs.length ≤ n → bs.length ≤ m → items n pos bs = items m pos bs := by
  induction n with
  | zero =>
    intro m pos bs h _
    cases bs with
    | nil => cases m <;> rfl
    | cons => simp at h
  | succ n ih =>
    intro m pos bs h hm
    match bs, m with
    | [], 0 => rfl
    | [], m + 1 => rfl
    | [_], 0 => simp at hm
    | [_], m + 1 => rfl
    | _ :: _ :: _, 0 => simp at hm
    | c :: l :: r, m + 1 =>
      simp only [List.length_cons] at h hm
      rw [items, items, ih m (pos + 1) (l :: r) (by simp; omega) (by simp; omega),
        ih m (pos + 2 + l.toNat) (r.drop l.toNat) (by rw [List.length_drop]; omega) (by rw [List.length_drop]; omega)]

/-- The options from an offset on. -/
def itemsAt (d : Bytes) (pos : Nat) : List Item × Bool := items (d.length + 1) pos (d.drop pos)

theorem itemsAt_eq (d : Bytes) (pos n : Nat) (h : d.length - pos ≤ n) : itemsAt d pos = items n pos (d.drop pos) :=
  items_fuel _ _ _ _ (by rw [List.length_drop]; omega) (by rw [List.length_drop]; omega)

theorem drop_succ_of {d : Bytes} {pos : Nat} {c : UInt8} {r : Bytes} (h : d.drop pos = c :: r) : d.drop (pos + 1) = r := by
  rw [← List.drop_drop, h]; rfl

theorem itemsAt_short {d : Bytes} {pos : Nat} (h : d.length - pos < 2) : itemsAt d pos = ([], true) := by
  unfold itemsAt
  have hl : (d.drop pos).length < 2 := by rw [List.length_drop]; omega
  match hd : d.drop pos with
  | [] => rfl
  | [_] => rfl
  | _ :: _ :: _ => rw [hd] at hl; simp only [List.length_cons] at hl; omega

theorem drop_len {d : Bytes} {pos : Nat} {c l : UInt8} {r : Bytes} (h : d.drop pos = c :: l :: r) :
    pos + 2 + r.length = d.length ∧ d.drop (pos + 2) = r := by
  have h1 := congrArg List.length h
  simp only [List.length_drop, List.length_cons] at h1
  refine ⟨by omega, ?_⟩
  rw [← List.drop_drop, h]; rfl

theorem itemsAt_pad {d : Bytes} {pos : Nat} {l : UInt8} {r : Bytes} (h : d.drop pos = 0 :: l :: r) :
    itemsAt d pos = itemsAt d (pos + 1) := by
  have hl := (drop_len h).1
  rw [itemsAt_eq d pos (d.length + 1) (by omega), h, items, if_pos rfl, itemsAt_eq d (pos + 1) d.length (by omega),
    drop_succ_of h]

theorem itemsAt_end {d : Bytes} {pos : Nat} {l : UInt8} {r : Bytes} (h : d.drop pos = 255 :: l :: r) :
    itemsAt d pos = ([], true) := by
  rw [itemsAt_eq d pos (d.length + 1) (by omega), h, items, if_neg (by decide), if_pos rfl]

theorem itemsAt_item {d : Bytes} {pos : Nat} {c l : UInt8} {r : Bytes} (h : d.drop pos = c :: l :: r) (h0 : c ≠ 0)
    (h1 : c ≠ 255) (hl : l.toNat ≤ r.length) :
    itemsAt d pos = (⟨c, l, pos + 2⟩ :: (itemsAt d (pos + 2 + l.toNat)).1, (itemsAt d (pos + 2 + l.toNat)).2) := by
  obtain ⟨k1, k2⟩ := drop_len h
  rw [itemsAt_eq d pos (d.length + 1) (by omega), h, items, if_neg h0, if_neg h1, if_pos hl,
    itemsAt_eq d (pos + 2 + l.toNat) d.length (by omega), ← List.drop_drop, k2]

theorem itemsAt_cut {d : Bytes} {pos : Nat} {c l : UInt8} {r : Bytes} (h : d.drop pos = c :: l :: r) (h0 : c ≠ 0)
    (h1 : c ≠ 255) (hl : ¬ l.toNat ≤ r.length) : itemsAt d pos = ([⟨c, l, pos + 2⟩], false) := by
  rw [itemsAt_eq d pos (d.length + 1) (by omega), h, items, if_neg h0, if_neg h1, if_neg hl]

/-- Codes are neither pad nor end, and contents start inside the packet. -/
theorem itemsAt_mem (d : Bytes) : ∀ (n pos : Nat), d.length - pos ≤ n → ∀ i ∈ (itemsAt d pos).1,
    i.code ≠ 0 ∧ i.code ≠ 255 ∧ i.start ≤ d.length := by
  intro n
  induction n with
  | zero =>
    intro pos h i hi
    rw [itemsAt_short (by omega)] at hi
    simp at hi
  | succ n ih =>
    intro pos h i hi
    match hd : d.drop pos with
    | [] => rw [itemsAt_short (by have := congrArg List.length hd; simp at this; omega)] at hi; simp at hi
    | [_] => rw [itemsAt_short (by have := congrArg List.length hd; simp at this; omega)] at hi; simp at hi
    | c :: l :: r =>
      obtain ⟨k1, k2⟩ := drop_len hd
      by_cases h0 : c = 0
      · subst h0
        rw [itemsAt_pad hd] at hi
        exact ih _ (by omega) i hi
      by_cases h1 : c = 255
      · subst h1
        rw [itemsAt_end hd] at hi
        simp at hi
      by_cases hl : l.toNat ≤ r.length
      · rw [itemsAt_item hd h0 h1 hl] at hi
        rcases List.mem_cons.1 hi with rfl | hi
        · exact ⟨h0, h1, by simp only; omega⟩
        · exact ih _ (by omega) i hi
      · rw [itemsAt_cut hd h0 h1 hl] at hi
        rw [List.mem_singleton] at hi
        subst hi
        exact ⟨h0, h1, by simp only; omega⟩

/-- After some of the options, the scan goes on behind the last of them. -/
theorem itemsAt_split (d : Bytes) : ∀ (n pos : Nat), d.length - pos ≤ n → ∀ (pre : List Item) (i : Item) (suf : List Item),
    (itemsAt d pos).1 = pre ++ i :: suf →
      (i.start + i.len.toNat ≤ d.length ∧ itemsAt d (i.start + i.len.toNat) = (suf, (itemsAt d pos).2)) ∨
      (d.length < i.start + i.len.toNat ∧ suf = [] ∧ (itemsAt d pos).2 = false) := by
  intro n
  induction n with
  | zero =>
    intro pos h pre i suf hi
    rw [itemsAt_short (by omega)] at hi
    simp at hi
  | succ n ih =>
    intro pos h pre i suf hi
    match hd : d.drop pos with
    | [] => rw [itemsAt_short (by have := congrArg List.length hd; simp at this; omega)] at hi; simp at hi
    | [_] => rw [itemsAt_short (by have := congrArg List.length hd; simp at this; omega)] at hi; simp at hi
    | c :: l :: r =>
      obtain ⟨k1, k2⟩ := drop_len hd
      by_cases h0 : c = 0
      · subst h0
        rw [itemsAt_pad hd] at hi ⊢
        exact ih _ (by omega) pre i suf hi
      by_cases h1 : c = 255
      · subst h1
        rw [itemsAt_end hd] at hi
        simp at hi
      by_cases hl : l.toNat ≤ r.length
      · rw [itemsAt_item hd h0 h1 hl] at hi ⊢
        cases pre with
        | nil =>
          rw [List.nil_append] at hi
          injection hi with e1 e2
          subst e1
          left
          refine ⟨by simp only; omega, ?_⟩
          simp only
          rw [← e2]
        | cons p pre =>
          rw [List.cons_append] at hi
          injection hi with e1 e2
          exact ih _ (by omega) pre i suf e2
      · rw [itemsAt_cut hd h0 h1 hl] at hi ⊢
        cases pre with
        | nil =>
          rw [List.nil_append] at hi
          injection hi with e1 e2
          subst e1
          right
          exact ⟨by simp only; omega, e2.symm, rfl⟩
        | cons p pre => simp at hi

/-! ## The cache -/

def toLoc (i : Item) : Loc := ⟨i.code, UInt16.ofNat i.start, i.len⟩

/-- The cache after the options `done` were seen. -/
def cacheOf (done : List Item) : Cache := (done.take 9).map toLoc ++ List.replicate (9 - done.length) ⟨0, 0, 0⟩

theorem insert_new (i : Item) (ls : List Item) (k : Nat) (h : ∀ j ∈ ls, j.code ≠ 0) :
    Cache.insert (toLoc i) (ls.map toLoc ++ List.replicate (k + 1) ⟨0, 0, 0⟩) =
      (ls ++ [i]).map toLoc ++ List.replicate k ⟨0, 0, 0⟩ := by
  induction ls with
  | nil => rfl
  | cons j ls ih =>
    show Cache.insert (toLoc i) (toLoc j :: (ls.map toLoc ++ List.replicate (k + 1) ⟨0, 0, 0⟩)) = _
    rw [Cache.insert, if_neg (show ¬ (toLoc j).option = 0 from h j (by simp)), ih fun j' hj' => h j' (List.mem_cons_of_mem _ hj')]
    rfl

theorem insert_full (i : Item) (ls : List Item) (h : ∀ j ∈ ls, j.code ≠ 0) :
    Cache.insert (toLoc i) (ls.map toLoc) = ls.map toLoc := by
  induction ls with
  | nil => rfl
  | cons j ls ih =>
    show Cache.insert (toLoc i) (toLoc j :: ls.map toLoc) = _
    rw [Cache.insert, if_neg (show ¬ (toLoc j).option = 0 from h j (by simp)), ih fun j' hj' => h j' (List.mem_cons_of_mem _ hj')]
    rfl

theorem cacheOf_insert (i : Item) (done : List Item) (h : ∀ j ∈ done, j.code ≠ 0) :
    Cache.insert (toLoc i) (cacheOf done) = cacheOf (done ++ [i]) := by
  unfold cacheOf
  rw [List.length_append, List.length_singleton]
  by_cases hl : done.length < 9
  · rw [List.take_of_length_le (by omega), List.take_of_length_le (by simp; omega),
      show 9 - done.length = (9 - (done.length + 1)) + 1 by omega, insert_new i done _ h]
  · rw [List.take_append_of_le_length (by omega), show 9 - done.length = 0 by omega,
      show 9 - (done.length + 1) = 0 by omega, List.replicate_zero, List.append_nil,
      insert_full i _ fun j hj => h j (List.mem_of_mem_take hj)]

/-- Where the scan goes on. -/
def endOf : Nat → List Item → Nat
  | s, [] => s
  | _, i :: is => endOf (i.start + i.len.toNat) is

theorem endOf_append (s : Nat) (pre : List Item) (i : Item) : endOf s (pre ++ [i]) = i.start + i.len.toNat := by
  induction pre generalizing s with
  | nil => rfl
  | cons j pre ih => exact ih _

theorem cacheFind_eq (opt : UInt8) (ls : List Item) (k : Nat) (h : ∀ j ∈ ls, j.code ≠ 0 ∧ j.start ≤ 65280) (s : Nat) :
    cacheFind opt (ls.map toLoc ++ List.replicate k ⟨0, 0, 0⟩) (UInt16.ofNat s) =
      match ls.find? (·.code = opt) with
      | some i => .ok (.ok (toLoc i))
      | none => .ok (.error (UInt16.ofNat (endOf s ls))) := by
  induction ls generalizing s with
  | nil =>
    cases k with
    | zero => rfl
    | succ k => rfl
  | cons j ls ih =>
    have hj := h j (by simp)
    have hlen : j.len.toNat < 256 := j.len.toNat_lt
    have hst : (toLoc j).ptr.toNat = j.start := ofNat16_toNat (by omega)
    rw [List.map_cons, List.cons_append, cacheFind, if_pos (show (toLoc j).option ≠ 0 from hj.1), List.find?_cons]
    by_cases hc : j.code = opt
    · rw [if_pos (show (toLoc j).option = opt from hc)]; simp [hc]
    · rw [if_neg (show ¬ (toLoc j).option = opt from hc), if_pos (by rw [hst]; show j.start + j.len.toNat ≤ 65535; omega)]
      have e : (toLoc j).ptr + (toLoc j).len.toUInt16 = UInt16.ofNat (j.start + j.len.toNat) := by
        apply u16_ext
        rw [UInt16.toNat_add, hst, ofNat16_toNat (by omega)]
        show (j.start + j.len.toNat) % 65536 = _
        omega
      rw [e, ih (fun j' hj' => h j' (List.mem_cons_of_mem _ hj')) (j.start + j.len.toNat)]
      simp only [hc, decide_false]
      rfl

/-! ## The scan -/

theorem len_i16 (l : UInt8) : l.toUInt16.toInt16.toInt = l.toNat := by
  have h : ∀ x : UInt8, x.toUInt16.toInt16.toInt = x.toNat := forall_u8 (p := fun x => x.toUInt16.toInt16.toInt = x.toNat) (by decide +kernel)
  exact h l

/-- The loop, from offset `pos` with the options `done` seen before. -/
theorem run_seekLoop {d : Bytes} (opt : UInt8) :
    ∀ (fuel pos : Nat) (done : List Item), pos ≤ d.length → d.length - pos < fuel → (∀ j ∈ done, j.code ≠ 0) →
      ∃ pre, pre <+: (itemsAt d pos).1 ∧
        match (itemsAt d pos).1.find? (·.code = opt) with
        | some i => (seekLoop opt fuel (cacheOf done)).run cursorOps ⟨d, pos⟩ =
            (.ok (some i.len, cacheOf (done ++ pre)), ⟨d, i.start⟩)
        | none => ∃ pos', pos' ≤ d.length ∧ (seekLoop opt fuel (cacheOf done)).run cursorOps ⟨d, pos⟩ =
            (if (itemsAt d pos).2 then .ok (none, cacheOf (done ++ pre)) else .error .unexpectedEof, ⟨d, pos'⟩) := by
  intro fuel
  induction fuel with
  | zero => intro pos done _ h; omega
  | succ fuel ih =>
    intro pos done hp hf hdone
    have hread : RProg.run cursorOps (RProg.doRead 2) ⟨d, pos⟩ = (.ok ((d.drop pos).take 2), ⟨d, pos + ((d.drop pos).take 2).length⟩) :=
      cur_read 2 d pos
    have short : ((d.drop pos).length < 2) → ∃ pre, pre <+: (itemsAt d pos).1 ∧
        match (itemsAt d pos).1.find? (·.code = opt) with
        | some i => (seekLoop opt (fuel + 1) (cacheOf done)).run cursorOps ⟨d, pos⟩ =
            (.ok (some i.len, cacheOf (done ++ pre)), ⟨d, i.start⟩)
        | none => ∃ pos', pos' ≤ d.length ∧ (seekLoop opt (fuel + 1) (cacheOf done)).run cursorOps ⟨d, pos⟩ =
            (if (itemsAt d pos).2 then .ok (none, cacheOf (done ++ pre)) else .error .unexpectedEof, ⟨d, pos'⟩) := by
      intro hs
      have hs' := hs
      rw [List.length_drop] at hs'
      rw [itemsAt_short hs']
      refine ⟨[], List.nil_prefix, pos + ((d.drop pos).take 2).length, ?_, ?_⟩
      · rw [List.length_take, List.length_drop]; omega
      · rw [seekLoop, RProg.bind_ok hread, List.append_nil]
        match hx : (d.drop pos).take 2 with
        | [] => rfl
        | [_] => rfl
        | _ :: _ :: _ => 
          have := congrArg List.length hx
          rw [List.length_take] at this
          simp only [List.length_cons] at this
          omega
    match hdp : d.drop pos with
    | [] => exact short (by rw [hdp]; simp)
    | [_] => exact short (by rw [hdp]; simp)
    | c :: l :: r =>
      obtain ⟨k1, k2⟩ := drop_len hdp
      have ht : (d.drop pos).take 2 = [c, l] := by rw [hdp]; rfl
      rw [ht] at hread
      have hread : RProg.run cursorOps (RProg.doRead 2) ⟨d, pos⟩ = (.ok [c, l], ⟨d, pos + 2⟩) := hread
      rw [seekLoop, RProg.bind_ok hread]
      dsimp only
      by_cases e1 : c = 255
      · subst e1
        rw [itemsAt_end hdp, if_pos rfl]
        exact ⟨[], List.nil_prefix, pos + 2, by omega, by rw [List.append_nil]; rfl⟩
      rw [if_neg e1]
      by_cases e0 : c = 0
      · subst e0
        rw [if_pos rfl, itemsAt_pad hdp]
        by_cases el : l = 0
        · subst el
          rw [if_pos rfl]
          have hsk : itemsAt d (pos + 1) = itemsAt d (pos + 2) := by
            cases r with
            | nil => rw [itemsAt_short (by simp at k1; omega), itemsAt_short (by simp at k1; omega)]
            | cons x r =>
              have : d.drop (pos + 1) = 0 :: x :: r := drop_succ_of hdp
              rw [itemsAt_pad this]
          rw [hsk]
          exact ih (pos + 2) done (by omega) (by omega) hdone
        · rw [if_neg el]
          have hs : RProg.run cursorOps (RProg.doSeek (.current (-1))) ⟨d, pos + 2⟩ = (.ok (), ⟨d, pos + 1⟩) :=
            cur_seekCurrent (by show ((pos + 2 : Nat) : Int) + (-1) = _; omega) (by omega)
          rw [RProg.bind_ok hs]
          exact ih (pos + 1) done (by omega) (by omega) hdone
      rw [if_neg e0]
      have hpos : RProg.run cursorOps RProg.doStreamPosition ⟨d, pos + 2⟩ = (.ok (UInt16.ofNat (pos + 2)), ⟨d, pos + 2⟩) :=
        cur_streamPosition d (pos + 2)
      have hins : Cache.insert ⟨c, UInt16.ofNat (pos + 2), l⟩ (cacheOf done) = cacheOf (done ++ [⟨c, l, pos + 2⟩]) :=
        cacheOf_insert ⟨c, l, pos + 2⟩ done hdone
      by_cases ho : c = opt
      · subst ho
        rw [if_pos rfl, RProg.bind_ok hpos, hins]
        by_cases hl : l.toNat ≤ r.length
        · rw [itemsAt_item hdp e0 e1 hl]
          refine ⟨[⟨c, l, pos + 2⟩], ⟨_, rfl⟩, ?_⟩
          simp [RProg.run_pure]
        · rw [itemsAt_cut hdp e0 e1 hl]
          refine ⟨[⟨c, l, pos + 2⟩], List.prefix_refl _, ?_⟩
          simp [RProg.run_pure]
      rw [if_neg ho, RProg.bind_ok hpos, hins]
      by_cases hl : l.toNat ≤ r.length
      · have hs : RProg.run cursorOps (RProg.doSeek (.current l.toUInt16.toInt16)) ⟨d, pos + 2⟩ = (.ok (), ⟨d, pos + 2 + l.toNat⟩) :=
          cur_seekCurrent (by rw [len_i16]; omega) (by omega)
        rw [RProg.bind_ok hs, itemsAt_item hdp e0 e1 hl]
        obtain ⟨pre, p1, p2⟩ := ih (pos + 2 + l.toNat) (done ++ [⟨c, l, pos + 2⟩]) (by omega) (by omega) (by
          intro j hj
          rcases List.mem_append.1 hj with hj | hj
          · exact hdone j hj
          · rw [List.mem_singleton] at hj; subst hj; exact e0)
        refine ⟨⟨c, l, pos + 2⟩ :: pre, ?_, ?_⟩
        · obtain ⟨t, ht⟩ := p1; exact ⟨t, by rw [List.cons_append, ht]⟩
        · rw [List.find?_cons]
          simp only [ho, decide_false]
          rw [List.append_assoc] at p2
          exact p2
      · have hs : RProg.run cursorOps (RProg.doSeek (.current l.toUInt16.toInt16)) ⟨d, pos + 2⟩ = (.error .unexpectedEof, ⟨d, pos + 2⟩) :=
          cur_seekCurrent_eof (by rw [len_i16]; omega)
        rw [RProg.bind_error hs, itemsAt_cut hdp e0 e1 hl]
        refine ⟨[], List.nil_prefix, ?_⟩
        simp only [List.find?_cons, ho, decide_false, List.find?_nil]
        exact ⟨pos + 2, by omega, rfl⟩

/-- The cache holds the first options of the packet. -/
def CacheOk (d : Bytes) (c : Cache) : Prop := ∃ done, done <+: (packetItems d).1 ∧ c = cacheOf done

theorem find_prefix {α : Type} {p : α → Bool} {a b : List α} (h : a <+: b) {x : α} (hx : a.find? p = some x) : b.find? p = some x := by
  obtain ⟨t, rfl⟩ := h
  rw [List.find?_append, hx]; rfl

/-- A lookup with a cache filled by earlier lookups. -/
theorem run_seekToOption {d : Bytes} (hd : d.length ≤ 65280) (opt : UInt8) {c : Cache}
    (hc : CacheOk d c) (p : Nat) (hp : p ≤ d.length) :
    match lookup d opt with
    | .found i => ∃ c', CacheOk d c' ∧ (seekToOption opt c).run cursorOps ⟨d, p⟩ = (.ok (some i.len, c'), ⟨d, i.start⟩)
    | .absent => ∃ c' p', CacheOk d c' ∧ p' ≤ d.length ∧ (seekToOption opt c).run cursorOps ⟨d, p⟩ = (.ok (none, c'), ⟨d, p'⟩)
    | .truncated => ∃ p', p' ≤ d.length ∧ (seekToOption opt c).run cursorOps ⟨d, p⟩ = (.error .unexpectedEof, ⟨d, p'⟩) := by
  obtain ⟨done, hpre, rfl⟩ := hc
  have hmem : ∀ i ∈ (packetItems d).1, i.code ≠ 0 ∧ i.code ≠ 255 ∧ i.start ≤ d.length := by
    intro i hi
    unfold packetItems at hi
    split at hi
    · exact itemsAt_mem d d.length 240 (by omega) i hi
    · simp at hi
  have htake : done.take 9 <+: (packetItems d).1 := (List.take_prefix 9 done).trans hpre
  have hm9 : ∀ j ∈ done.take 9, j.code ≠ 0 ∧ j.start ≤ 65280 := by
    intro j hj
    obtain ⟨a, -, b⟩ := hmem j (htake.subset hj)
    exact ⟨a, by omega⟩
  have hf := cacheFind_eq opt (done.take 9) (9 - done.length) hm9 240
  rcases hfind : (done.take 9).find? (·.code = opt) with _ | i
  · -- not in the cache
    have hseek : seekToOption opt (cacheOf done) =
        (RProg.doSeek (.start (UInt16.ofNat (endOf 240 (done.take 9)))) >>= fun _ => seekLoop opt 65536 (cacheOf done)) := by
      unfold seekToOption
      rw [show cacheFind opt (cacheOf done) 240 = _ from hf, hfind]
    rw [hseek]
    generalize hE : endOf 240 (done.take 9) = E
    -- the scan from `E`
    have key : (E ≤ d.length → (packetItems d).1 = done.take 9 ++ (itemsAt d E).1 ∧ (packetItems d).2 = (itemsAt d E).2) ∧
        (d.length < E → (packetItems d).1 = done.take 9 ∧ (packetItems d).2 = false) ∧ E < 65536 := by
      rcases List.eq_nil_or_concat (done.take 9) with hnil | ⟨pre, i, hcat⟩
      · rw [hnil] at hE
        have : E = 240 := hE.symm
        subst this
        unfold packetItems
        refine ⟨fun h => ?_, fun h => ?_, by omega⟩
        · rw [if_pos h, hnil]; exact ⟨rfl, rfl⟩
        · rw [if_neg (by omega), hnil]; exact ⟨rfl, rfl⟩
      · rw [List.concat_eq_append] at hcat
        rw [hcat, endOf_append] at hE
        obtain ⟨suf, hsuf⟩ := htake
        rw [hcat, List.append_assoc] at hsuf
        have hi : i ∈ (packetItems d).1 := by rw [← hsuf]; simp
        have hb := (hmem i hi).2.2
        have hlt : i.len.toNat < 256 := i.len.toNat_lt
        have h240 : 240 ≤ d.length := by
          unfold packetItems at hi
          split at hi
          · assumption
          · simp at hi
        have hP : packetItems d = itemsAt d 240 := by unfold packetItems; rw [if_pos h240]; rfl
        rw [hP] at hsuf ⊢
        have hs := itemsAt_split d d.length 240 (by omega) pre i suf (by rw [← hsuf]; rfl)
        rw [hE] at hs
        refine ⟨fun h => ?_, fun h => ?_, by omega⟩
        · rcases hs with ⟨_, h2⟩ | ⟨h1, _⟩
          · rw [h2, hcat, ← hsuf]; simp
          · omega
        · rcases hs with ⟨h1, _⟩ | ⟨_, h2, h3⟩
          · omega
          · rw [← hsuf, h2, hcat]; exact ⟨rfl, h3⟩
    obtain ⟨key1, key2, hE16⟩ := key
    have hEnat : (UInt16.ofNat E).toNat = E := ofNat16_toNat hE16
    by_cases hle : E ≤ d.length
    · obtain ⟨g1, g2⟩ := key1 hle
      have hs : RProg.run cursorOps (RProg.doSeek (.start (UInt16.ofNat E))) ⟨d, p⟩ = (.ok (), ⟨d, E⟩) := by
        rw [cur_seekStart (by rw [hEnat]; exact hle), hEnat]
      have hnone : ∀ l : List Item, (done.take 9 ++ l).find? (·.code = opt) = l.find? (·.code = opt) := by
        intro l; rw [List.find?_append, hfind]; rfl
      have hcache : cacheOf done = cacheOf (done.take 9) := by
        unfold cacheOf
        rw [List.take_take, List.length_take]
        congr 2
        omega
      obtain ⟨pre, p1, p2⟩ := run_seekLoop opt 65536 E (done.take 9) hle (by omega) fun j hj => (hm9 j hj).1
      have hok : CacheOk d (cacheOf (done.take 9 ++ pre)) := by
        refine ⟨_, ?_, rfl⟩
        rw [g1]
        obtain ⟨t, ht⟩ := p1
        exact ⟨t, by rw [List.append_assoc, ht]⟩
      have hl : lookup d opt = match (itemsAt d E).1.find? (·.code = opt) with
          | some i => .found i
          | none => if (itemsAt d E).2 then .absent else .truncated := by
        unfold lookup; rw [g1, hnone, g2]
        cases (itemsAt d E).1.find? (·.code = opt) <;> rfl
      rw [hcache]
      rcases hff : (itemsAt d E).1.find? (·.code = opt) with _ | i
      · rw [hff] at p2 hl
        obtain ⟨pos', q1, q2⟩ := p2
        cases hflag : (itemsAt d E).2
        · rw [hflag] at q2 hl
          rw [hl]
          exact ⟨pos', q1, by rw [RProg.bind_ok hs]; exact q2⟩
        · rw [hflag] at q2 hl
          rw [hl]
          exact ⟨_, pos', hok, q1, by rw [RProg.bind_ok hs]; exact q2⟩
      · rw [hff] at p2 hl
        rw [hl]
        exact ⟨_, hok, by rw [RProg.bind_ok hs]; exact p2⟩
    · obtain ⟨g1, g2⟩ := key2 (by omega)
      have hl : lookup d opt = .truncated := by unfold lookup; rw [g1, hfind, g2]; rfl
      rw [hl]
      refine ⟨p, hp, ?_⟩
      rw [RProg.bind_error (cur_seekStart_eof (by rw [hEnat]; exact hle))]
  · -- in the cache
    have hl : lookup d opt = .found i := by
      unfold lookup
      rw [find_prefix htake hfind]
    rw [hl]
    have hi : i ∈ (packetItems d).1 := htake.subset (List.mem_of_find?_eq_some hfind)
    have hb := (hmem i hi).2.2
    have hst : (toLoc i).ptr.toNat = i.start := ofNat16_toNat (by omega)
    refine ⟨_, ⟨done, hpre, rfl⟩, ?_⟩
    have hs : RProg.run cursorOps (RProg.doSeek (.start (toLoc i).ptr)) ⟨d, p⟩ = (.ok (), ⟨d, i.start⟩) := by
      rw [cur_seekStart (by rw [hst]; exact hb), hst]
    have hseek : seekToOption opt (cacheOf done) =
        (RProg.doSeek (.start (toLoc i).ptr) >>= fun _ => pure (some (toLoc i).len, cacheOf done)) := by
      unfold seekToOption
      rw [show cacheFind opt (cacheOf done) 240 = _ from hf, hfind]
    rw [hseek, RProg.bind_ok hs]
    rfl

end Verif
