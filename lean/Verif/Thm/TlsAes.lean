import Verif.Model.Tls.Aes
import Verif.Spec.Aes
import Verif.Proof.Basic
/-!
# C55: the block cipher is AES-128
-/
namespace Verif.Tls
open Spec.Aes (State)

/-- The FIPS 197 state of the 16 bytes of a block. -/
def Block.state (b : Block) : State := State.ofBytes fun i => b[i.val]

theorem state_at (b : Block) (r c : Fin 4) : b.state r c = b[r.val + 4 * c.val] := rfl

theorem xtime_eq (x : UInt8) : xtime x = Spec.Aes.xtimes x :=
  forall_u8 (p := fun x => xtime x = Spec.Aes.xtimes x) (by decide +kernel) x

/-! The arithmetic of the specification on natural numbers, in a form the kernel evaluates quickly: `force` evaluates a value once. -/

def force {α : Type} (n : Nat) (k : Nat → α) : α := Nat.rec (motive := fun _ => α) (k 0) (fun n _ => k (Nat.succ n)) n

theorem force_eq {α : Type} (n : Nat) (k : Nat → α) : force n k = k n := by cases n <;> rfl

def xtimesN (b : Nat) : Nat := cond (Nat.ble 128 b) (Nat.xor (Nat.sub (Nat.mul 2 b) 256) 27) (Nat.mul 2 b)

theorem xtimesN_eq (b : UInt8) : (Spec.Aes.xtimes b).toNat = xtimesN b.toNat :=
  forall_u8 (p := fun b => (Spec.Aes.xtimes b).toNat = xtimesN b.toNat) (by decide +kernel) b

def pick (a i s b : Nat) : Nat := Nat.xor s (Nat.mul (Nat.mod (Nat.shiftRight a i) 2) b)

def mulN (a b : Nat) : Nat :=
  force (xtimesN b) fun b1 => force (xtimesN b1) fun b2 => force (xtimesN b2) fun b3 =>
  force (xtimesN b3) fun b4 => force (xtimesN b4) fun b5 => force (xtimesN b5) fun b6 =>
  force (xtimesN b6) fun b7 =>
  pick a 7 (pick a 6 (pick a 5 (pick a 4 (pick a 3 (pick a 2 (pick a 1 (pick a 0 0 b) b1) b2) b3) b4) b5) b6) b7

theorem pick_eq (a s b : UInt8) (i : Nat) : (if a.toNat.testBit i then s ^^^ b else s).toNat = pick a.toNat i s.toNat b.toNat := by
  unfold pick
  change _ = s.toNat ^^^ (((a.toNat >>> i) % 2) * b.toNat)
  rw [Nat.testBit_eq_decide_div_mod_eq, Nat.shiftRight_eq_div_pow]
  rcases Nat.mod_two_eq_zero_or_one (a.toNat / 2 ^ i) with h | h <;> rw [h] <;> simp

theorem mulN_eq (a b : UInt8) : (Spec.Aes.mul a b).toNat = mulN a.toNat b.toNat := by
  simp only [mulN, force_eq]
  simp only [← xtimesN_eq]
  change _ = pick _ _ (pick _ _ (pick _ _ (pick _ _ (pick _ _ (pick _ _ (pick _ _ (pick _ _ (0 : UInt8).toNat _) _) _) _) _) _) _) _
  simp only [← pick_eq]
  rfl

def invN (b : Nat) : Nat :=
  force (mulN b b) fun b2 => force (mulN b2 b2) fun b4 => force (mulN b4 b4) fun b8 => force (mulN b8 b8) fun b16 =>
  force (mulN b16 b16) fun b32 => force (mulN b32 b32) fun b64 => force (mulN b64 b64) fun b128 =>
  force (mulN b64 b128) fun s => force (mulN b32 s) fun s => force (mulN b16 s) fun s => force (mulN b8 s) fun s =>
  force (mulN b4 s) fun s => mulN b2 s

theorem invN_eq (b : UInt8) : (Spec.Aes.inv b).toNat = invN b.toNat := by
  simp only [invN, force_eq, ← mulN_eq]
  rfl

/-- The inverse of the specification is an inverse. -/
theorem inv_correct (x : UInt8) (h : x ≠ 0) : Spec.Aes.mul x (Spec.Aes.inv x) = 1 := by
  apply UInt8.toNat_inj.mp
  rw [mulN_eq, invN_eq]
  exact forall_u8 (p := fun x => x ≠ 0 → mulN x.toNat (invN x.toNat) = (1 : UInt8).toNat) (by decide +kernel) x h

/-- The affine transformation of a natural number. -/
def affineN (n : Nat) : Nat :=
  let b i := Nat.mod (Nat.shiftRight n i) 2
  let f i := Nat.shiftLeft (Nat.mod (b i + b ((i + 4) % 8) + b ((i + 5) % 8) + b ((i + 6) % 8) + b ((i + 7) % 8) + Nat.mod (Nat.shiftRight 0x63 i) 2) 2) i
  f 0 + f 1 + f 2 + f 3 + f 4 + f 5 + f 6 + f 7

theorem affineN_eq (x : UInt8) : (Spec.Aes.affine x).toNat = affineN x.toNat :=
  forall_u8 (p := fun x => (Spec.Aes.affine x).toNat = affineN x.toNat) (by decide +kernel) x

set_option maxRecDepth 8000 in
theorem sbox_eq (x : UInt8) : sbox x = Spec.Aes.sbox x := by
  apply UInt8.toNat_inj.mp
  unfold Spec.Aes.sbox
  rw [affineN_eq, invN_eq, ← force_eq (invN _) affineN]
  exact forall_u8 (p := fun x => (sbox x).toNat = force (invN x.toNat) affineN) (by decide +kernel) x

theorem mul2 (x : UInt8) : Spec.Aes.mul 2 x = xtime x := by rw [xtime_eq]; simp [Spec.Aes.mul, Spec.Aes.xpow, List.range, List.range.loop, Nat.testBit]
theorem mul3 (x : UInt8) : Spec.Aes.mul 3 x = x ^^^ xtime x := by
  rw [xtime_eq]; simp [Spec.Aes.mul, Spec.Aes.xpow, List.range, List.range.loop, Nat.testBit]

theorem bit7 (x : UInt8) : x >>> 7 = 0 ∨ x >>> 7 = 1 :=
  forall_u8 (p := fun x => x >>> 7 = 0 ∨ x >>> 7 = 1) (by decide +kernel) x

theorem xtime_xor (x y : UInt8) : xtime (x ^^^ y) = xtime x ^^^ xtime y := by
  unfold xtime
  rw [UInt8.shiftLeft_xor, UInt8.shiftRight_xor]
  have e : ((x >>> (7 : UInt8) ^^^ y >>> (7 : UInt8)) &&& (1 : UInt8)) * (0x1b : UInt8)
      = ((x >>> (7 : UInt8) &&& (1 : UInt8)) * (0x1b : UInt8)) ^^^ ((y >>> (7 : UInt8) &&& (1 : UInt8)) * (0x1b : UInt8)) := by
    rcases bit7 x with h | h <;> rcases bit7 y with h' | h' <;> rw [h, h'] <;> decide
  rw [e]
  ac_rfl

theorem subBytes_state (b : Block) : Block.state (subBytes b) = Spec.Aes.subBytes (Block.state b) := by
  funext r c
  simp [state_at, subBytes, Spec.Aes.subBytes, sbox_eq]

theorem fin4 (p : Fin 4 → Prop) (h0 : p 0) (h1 : p 1) (h2 : p 2) (h3 : p 3) (i : Fin 4) : p i := by
  match i with
  | 0 => exact h0
  | 1 => exact h1
  | 2 => exact h2
  | 3 => exact h3

theorem val3 : ((3 : Fin 4) : Nat) = 3 := rfl

theorem shiftRows_state (b : Block) : Block.state (shiftRows b) = Spec.Aes.shiftRows (Block.state b) := by
  funext r c
  revert r c
  apply fin4 <;> apply fin4 <;> simp [val3, state_at, shiftRows, Spec.Aes.shiftRows]

theorem mixColumn_other (i : Nat) (h : i < 4) (b : Block) (k : Nat) (hk : k < 16) (hne : k / 4 ≠ i) : (mixColumn i h b)[k] = b[k] := by
  have h0 : i * 4 ≠ k := by omega
  have h1 : i * 4 + 1 ≠ k := by omega
  have h2 : i * 4 + 2 ≠ k := by omega
  have h3 : i * 4 + 3 ≠ k := by omega
  simp [mixColumn, h0, h1, h2, h3]

theorem xor_cancel (a b : UInt8) : a ^^^ (a ^^^ b) = b := by rw [← UInt8.xor_assoc]; simp

theorem xor_left_comm (a b c : UInt8) : a ^^^ (b ^^^ c) = b ^^^ (a ^^^ c) := by
  rw [← UInt8.xor_assoc, UInt8.xor_comm a b, UInt8.xor_assoc]

theorem mix_byte (x0 x1 x2 x3 : UInt8) :
    x0 ^^^ (xtime (x0 ^^^ x1) ^^^ (x0 ^^^ x1 ^^^ x2 ^^^ x3)) = Spec.Aes.mul 2 x0 ^^^ Spec.Aes.mul 3 x1 ^^^ x2 ^^^ x3
    ∧ x0 ^^^ (xtime (x0 ^^^ x1) ^^^ (x3 ^^^ x0 ^^^ x1 ^^^ x2)) = Spec.Aes.mul 2 x0 ^^^ Spec.Aes.mul 3 x1 ^^^ x2 ^^^ x3
    ∧ x0 ^^^ (xtime (x0 ^^^ x1) ^^^ (x2 ^^^ x3 ^^^ x0 ^^^ x1)) = Spec.Aes.mul 2 x0 ^^^ Spec.Aes.mul 3 x1 ^^^ x2 ^^^ x3
    ∧ x0 ^^^ (xtime (x0 ^^^ x1) ^^^ (x1 ^^^ x2 ^^^ x3 ^^^ x0)) = Spec.Aes.mul 2 x0 ^^^ Spec.Aes.mul 3 x1 ^^^ x2 ^^^ x3 := by
  simp only [xtime_xor, mul2, mul3]
  generalize xtime x0 = y0
  generalize xtime x1 = y1
  refine ⟨?_, ?_, ?_, ?_⟩ <;> simp only [UInt8.xor_comm, xor_left_comm, xor_cancel]

theorem mixColumn_same (i : Nat) (h : i < 4) (b : Block) :
    (mixColumn i h b)[i * 4] = Spec.Aes.mul 2 b[i * 4] ^^^ Spec.Aes.mul 3 b[i * 4 + 1] ^^^ b[i * 4 + 2] ^^^ b[i * 4 + 3]
    ∧ (mixColumn i h b)[i * 4 + 1] = Spec.Aes.mul 2 b[i * 4 + 1] ^^^ Spec.Aes.mul 3 b[i * 4 + 2] ^^^ b[i * 4 + 3] ^^^ b[i * 4]
    ∧ (mixColumn i h b)[i * 4 + 2] = Spec.Aes.mul 2 b[i * 4 + 2] ^^^ Spec.Aes.mul 3 b[i * 4 + 3] ^^^ b[i * 4] ^^^ b[i * 4 + 1]
    ∧ (mixColumn i h b)[i * 4 + 3] = Spec.Aes.mul 2 b[i * 4 + 3] ^^^ Spec.Aes.mul 3 b[i * 4] ^^^ b[i * 4 + 1] ^^^ b[i * 4 + 2] := by
  rw [← (mix_byte b[i * 4] b[i * 4 + 1] b[i * 4 + 2] b[i * 4 + 3]).1, ← (mix_byte b[i * 4 + 1] b[i * 4 + 2] b[i * 4 + 3] b[i * 4]).2.1,
    ← (mix_byte b[i * 4 + 2] b[i * 4 + 3] b[i * 4] b[i * 4 + 1]).2.2.1, ← (mix_byte b[i * 4 + 3] b[i * 4] b[i * 4 + 1] b[i * 4 + 2]).2.2.2]
  refine ⟨?_, ?_, ?_, ?_⟩ <;> simp [mixColumn]

theorem mixColumn_state (i : Nat) (h : i < 4) (b : Block) (r c : Fin 4) :
    Block.state (mixColumn i h b) r c = if c.val = i then Spec.Aes.mixColumns (Block.state b) r c else Block.state b r c := by
  by_cases hc : c.val = i
  · subst hc
    rw [if_pos rfl]
    obtain ⟨e0, e1, e2, e3⟩ := mixColumn_same c.val h b
    revert r
    apply fin4 <;> simp only [state_at, Spec.Aes.mixColumns]
    · simp only [Nat.mul_comm, Nat.add_comm]; simpa [val3] using e0
    · simp only [Nat.mul_comm, Nat.add_comm]; simpa [val3] using e1
    · simp only [Nat.mul_comm, Nat.add_comm]; simpa [val3] using e2
    · simp only [Nat.mul_comm, Nat.add_comm]; simpa [val3] using e3
  · rw [if_neg hc, state_at, mixColumn_other i h b _ _ (by omega)]
    rfl

theorem mixColumns_state (b : Block) : Block.state (mixColumns b) = Spec.Aes.mixColumns (Block.state b) := by
  have e : ∀ s t : State, ∀ r c, (∀ r', s r' c = t r' c) → Spec.Aes.mixColumns s r c = Spec.Aes.mixColumns t r c := by
    intro s t r c h
    simp [Spec.Aes.mixColumns, h]
  funext r c
  unfold mixColumns
  revert c
  apply fin4
  · rw [mixColumn_state, if_neg (by decide), mixColumn_state, if_neg (by decide), mixColumn_state, if_neg (by decide), mixColumn_state,
      if_pos (by decide)]
  · rw [mixColumn_state, if_neg (by decide), mixColumn_state, if_neg (by decide), mixColumn_state, if_pos (by decide)]
    exact e _ _ _ _ fun r' => by rw [mixColumn_state, if_neg (by decide)]
  · rw [mixColumn_state, if_neg (by decide), mixColumn_state, if_pos (by decide)]
    exact e _ _ _ _ fun r' => by rw [mixColumn_state, if_neg (by decide), mixColumn_state, if_neg (by decide)]
  · rw [mixColumn_state, if_pos (by decide)]
    exact e _ _ _ _ fun r' => by rw [mixColumn_state, if_neg (by decide), mixColumn_state, if_neg (by decide), mixColumn_state, if_neg (by decide)]

/-! ## Key schedule -/

theorem expandStep_other (i : Nat) (h4 : 4 ≤ i) (h : i < 44) (rk : Vector UInt8 176) (k : Nat) (hk : k < i * 4) :
    (expandStep i h4 h rk)[k] = rk[k] := by
  have h0 : i * 4 ≠ k := by omega
  have h1 : i * 4 + 1 ≠ k := by omega
  have h2 : i * 4 + 2 ≠ k := by omega
  have h3 : i * 4 + 3 ≠ k := by omega
  simp [expandStep, Vector.getElem_set, h0, h1, h2, h3]

theorem expandStep_same (i : Nat) (h4 : 4 ≤ i) (h : i < 44) (rk : Vector UInt8 176) :
    let t := scheduleCore i h (rk[(i - 1) * 4]'(by omega)) (rk[(i - 1) * 4 + 1]'(by omega)) (rk[(i - 1) * 4 + 2]'(by omega)) (rk[(i - 1) * 4 + 3]'(by omega))
    (expandStep i h4 h rk)[i * 4] = (rk[(i - 4) * 4]'(by omega) ^^^ t.1)
    ∧ (expandStep i h4 h rk)[i * 4 + 1] = (rk[(i - 4) * 4 + 1]'(by omega) ^^^ t.2.1)
    ∧ (expandStep i h4 h rk)[i * 4 + 2] = (rk[(i - 4) * 4 + 2]'(by omega) ^^^ t.2.2.1)
    ∧ (expandStep i h4 h rk)[i * 4 + 3] = (rk[(i - 4) * 4 + 3]'(by omega) ^^^ t.2.2.2) := by
  intro t
  refine ⟨?_, ?_, ?_, ?_⟩ <;> unfold expandStep <;> dsimp only <;> simp only [Vector.getElem_set] <;> grind

theorem rcon_eq : ∀ j : Fin 11, 1 ≤ j.val → rcon[j.val] = Spec.Aes.xpow (j.val - 1) 1 := by decide +kernel

theorem expandStep_word (key : Block) (n : Nat) (hn : n < 40) (rk : Vector UInt8 176)
    (hp : ∀ r : Fin 4, rk[(n + 3) * 4 + r.val] = Spec.Aes.word (fun i => key[i.val]) (n + 3) r)
    (hq : ∀ r : Fin 4, rk[n * 4 + r.val] = Spec.Aes.word (fun i => key[i.val]) n r) (r : Fin 4) :
    (expandStep (n + 4) (by omega) (by omega) rk)[(n + 4) * 4 + r.val] = Spec.Aes.word (fun i => key[i.val]) (n + 4) r := by
  have hw : Spec.Aes.word (fun i => key[i.val]) (n + 4) = Spec.Aes.xorWord (Spec.Aes.word (fun i => key[i.val]) n)
      (if (n + 4) % 4 = 0 then Spec.Aes.xorWord (Spec.Aes.subWord (Spec.Aes.rotWord (Spec.Aes.word (fun i => key[i.val]) (n + 3))))
        (Spec.Aes.rconWord ((n + 4) / 4)) else Spec.Aes.word (fun i => key[i.val]) (n + 3)) := by
    rw [Spec.Aes.word]
  rw [hw]
  generalize Spec.Aes.word (fun i => key[i.val]) n = w0 at *
  generalize Spec.Aes.word (fun i => key[i.val]) (n + 3) = w3 at *
  obtain ⟨e0, e1, e2, e3⟩ := expandStep_same (n + 4) (by omega) (by omega) rk
  have p0 := hp 0
  have p1 := hp 1
  have p2 := hp 2
  have p3 := hp 3
  have q0 := hq 0
  have q1 := hq 1
  have q2 := hq 2
  have q3 := hq 3
  have a1 : n + 4 - 1 = n + 3 := by omega
  have a4 : n + 4 - 4 = n := by omega
  simp only [a1, a4] at e0 e1 e2 e3
  simp only [val3, Fin.val_zero, Fin.val_one, Fin.val_two, Nat.add_zero] at p0 p1 p2 p3 q0 q1 q2 q3
  rw [p0, p1, p2, p3] at e0 e1 e2 e3
  rw [q0] at e0
  rw [q1] at e1
  rw [q2] at e2
  rw [q3] at e3
  have hr := rcon_eq ⟨(n + 4) / 4, by omega⟩ (by simp)
  unfold scheduleCore at e0 e1 e2 e3
  by_cases h4 : (n + 4) % 4 = 0
  · simp only [h4, if_true] at e0 e1 e2 e3 ⊢
    simp only at hr
    rw [hr, sbox_eq] at e0
    rw [sbox_eq] at e1 e2 e3
    revert r
    apply fin4
    · exact e0
    · refine e1.trans ?_
      simp [Spec.Aes.xorWord, Spec.Aes.rconWord, Spec.Aes.subWord, Spec.Aes.rotWord]
    · refine e2.trans ?_
      simp [Spec.Aes.xorWord, Spec.Aes.rconWord, Spec.Aes.subWord, Spec.Aes.rotWord]
    · refine e3.trans ?_
      simp [Spec.Aes.xorWord, Spec.Aes.rconWord, Spec.Aes.subWord, Spec.Aes.rotWord]
  · simp only [h4, if_false] at e0 e1 e2 e3 ⊢
    revert r
    apply fin4
    · exact e0
    · exact e1
    · exact e2
    · exact e3

theorem expandLoop_word (key : Block) (n : Nat) (hn : n ≤ 40) (w : Nat) (hw : w < 4 + n) (r : Fin 4) :
    (expandLoop (Vector.ofFn fun i : Fin 176 => if h : i.val < 16 then key[i.val] else 0) n hn)[w * 4 + r.val]
      = Spec.Aes.word (fun i => key[i.val]) w r := by
  induction n generalizing w r with
  | zero =>
    have hw4 : w < 4 := hw
    have : w * 4 + r.val < 16 := by omega
    simp only [expandLoop, Vector.getElem_ofFn, this, dite_true]
    match w, hw4 with
    | 0, _ => simp [Spec.Aes.word]
    | 1, _ => simp [Spec.Aes.word]
    | 2, _ => simp [Spec.Aes.word]
    | 3, _ => simp [Spec.Aes.word]
  | succ n ih =>
    unfold expandLoop
    by_cases hlt : w < 4 + n
    · rw [expandStep_other _ _ _ _ _ (by omega)]
      exact ih (by omega) w hlt r
    · have hweq : w = n + 4 := by omega
      subst hweq
      exact expandStep_word key n (by omega) _ (fun r => ih (by omega) (n + 3) (by omega) r) (fun r => ih (by omega) n (by omega) r) r

theorem roundKey_word (key : Block) (k w : Nat) (r : Fin 4) (hk : k < 176) (hw : w < 44) (he : k = w * 4 + r.val) :
    (Aes128.new key).roundKey[k] = Spec.Aes.word (fun i => key[i.val]) w r := by
  subst he
  exact expandLoop_word key 40 (Nat.le_refl _) w (by omega) r

theorem addRoundKey_state (key b : Block) (round : Nat) (h : round ≤ 10) :
    Block.state ((Aes128.new key).addRoundKey round h b) = Spec.Aes.addRoundKey (fun i => key[i.val]) round (Block.state b) := by
  funext r c
  have e := roundKey_word key (round * 16 + (r.val + 4 * c.val)) (4 * round + c.val) r (by omega) (by omega) (by omega)
  unfold Aes128.addRoundKey Spec.Aes.addRoundKey
  rw [state_at, Vector.getElem_ofFn, ← e, state_at]

theorem rounds_state (key b : Block) (n : Nat) (h : n ≤ 9) :
    Block.state ((Aes128.new key).rounds ((Aes128.new key).addRoundKey 0 (by omega) b) n h)
      = Spec.Aes.afterRounds (fun i => key[i.val]) (Block.state b) n := by
  induction n with
  | zero => exact addRoundKey_state key b 0 (by omega)
  | succ n ih =>
    rw [Aes128.rounds, addRoundKey_state, mixColumns_state, shiftRows_state, subBytes_state, ih]
    rfl

/-- C55.  For every key and every block, what `encrypt_block_inplace` leaves in the block is the output of the AES-128 cipher of FIPS 197 for that
key and that input. -/
theorem C55_aes128 (key block : Block) :
    Block.state ((Aes128.new key).encryptBlock block) = Spec.Aes.cipher (fun i => key[i.val]) (Block.state block) := by
  unfold Aes128.encryptBlock Spec.Aes.cipher
  rw [addRoundKey_state, shiftRows_state, subBytes_state, rounds_state]

/-- The state determines the block. -/
theorem state_inj (a b : Block) (h : Block.state a = Block.state b) : a = b := by
  apply Vector.ext
  intro i hi
  have := congrFun (congrFun h ⟨i % 4, by omega⟩) ⟨i / 4, by omega⟩
  simp only [state_at] at this
  have e : ∀ j (hj : j < 16), j = i → a[j] = b[j] → a[i] = b[i] := by
    intro j hj hji h
    subst hji
    exact h
  exact e _ _ (by omega) this

end Verif.Tls
