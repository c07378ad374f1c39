import Verif.Proof.TlsHandshake
import Verif.Proof.Panic
import Verif.Thm.TlsGcm
/-!
# Panics of the TLS client: triples, the cipher and the receive buffer
-/
namespace Verif.Tls
open Verif Hl
open _root_.Verif.Spec (NoPanic Device StatusTcp PortUnique)
open _root_.Verif.Gf2 (blockNat)

variable {σ τ S : Type} {x : Crypto} {ε ε' α β : Type} {z : Prop}

/-- From `P`, the computation ends with `Q` and a value, or with `E` and an error of the API; if `z`, it does not panic. -/
def TP (z : Prop) (P : S → Prop) (m : X ε S α) (Q : α → S → Prop) (E : S → Prop) : Prop :=
  ∀ s, P s → match m s with
    | (.ok a, s') => Q a s'
    | (.error (.err _), s') => E s'
    | (.error (.stop e), _) => z → e ≠ .panic
    | (.error .noKey, _) => True

/-- A predicate of the second component. -/
abbrev L2 (P : τ → Prop) : σ × τ → Prop := fun s => P s.2

/-- If `z`, the call does not panic and its value satisfies `V`. -/
def NPV (z : Prop) (V : α → Prop) (m : M σ α) : Prop := z → ∀ s, (m s).1 ≠ .error .panic ∧ ∀ a, (m s).1 = .ok a → V a

theorem NPV.of {V : α → Prop} {m : M σ α} (h : z → FineM V m) : NPV z V m :=
  fun hz s => ⟨fun e => ((h hz s).1 _ e).1 rfl, (h hz s).2⟩

namespace TP
variable {P : S → Prop} {Q : α → S → Prop} {E : S → Prop}

theorem conseq {m : X ε S α} {P' : S → Prop} {Q' : α → S → Prop} {E' : S → Prop} (h : TP z P m Q E)
    (hP : ∀ t, P' t → P t) (hQ : ∀ a t, Q a t → Q' a t) (hE : ∀ t, E t → E' t) : TP z P' m Q' E' := by
  intro s hs
  have := h s (hP _ hs)
  rcases hm : m s with ⟨(e | e | _) | a, s'⟩ <;> rw [hm] at this
  · exact hE _ this
  · exact this
  · exact this
  · exact hQ _ _ this

theorem pre {m : X ε S α} {P' : S → Prop} (h : TP z P m Q E) (hP : ∀ t, P' t → P t) : TP z P' m Q E :=
  h.conseq hP (fun _ _ h => h) (fun _ h => h)

theorem post {m : X ε S α} {Q' : α → S → Prop} (h : TP z P m Q E) (hQ : ∀ a t, Q a t → Q' a t) : TP z P m Q' E :=
  h.conseq (fun _ h => h) hQ (fun _ h => h)

theorem postE {m : X ε S α} {E' : S → Prop} (h : TP z P m Q E) (hE : ∀ t, E t → E' t) : TP z P m Q E' :=
  h.conseq (fun _ h => h) (fun _ _ h => h) hE

theorem pure (a : α) (h : ∀ t, P t → Q a t) : TP z P (Pure.pure a : X ε S α) Q E := fun s hs => h s hs

theorem bind {m : X ε S β} {f : β → X ε S α} {R : β → S → Prop} (hm : TP z P m R E) (hf : ∀ b, TP z (R b) (f b) Q E) :
    TP z P (m >>= f) Q E := by
  intro s hs
  have := hm s hs
  rw [X.bind_run]
  rcases h : m s with ⟨(e | e | _) | a, s'⟩ <;> rw [h] at this
  · exact this
  · exact this
  · exact this
  · exact hf a s' this

theorem throw (e : ε) (h : ∀ t, P t → E t) : TP z P (X.throw e : X ε S α) Q E := fun s hs => h s hs

theorem stop {e : Err} (h : ∀ t, P t → z → e ≠ .panic) : TP z P (X.ofExcept (.error (.stop e)) : X ε S α) Q E := fun s hs => h s hs

theorem hang : TP z P (X.ofExcept (.error (.stop .hang)) : X ε S α) Q E := fun _ _ _ h => nomatch h

theorem ofExcept {r : Except (Fail ε) α} (hp : ∀ t, P t → z → r ≠ .error (.stop .panic)) (hQ : ∀ a, r = .ok a → ∀ t, P t → Q a t)
    (hE : ∀ t, P t → E t) : TP z P (X.ofExcept r : X ε S α) Q E := by
  intro s hs
  unfold X.ofExcept
  match r, hp with
  | .ok a, _ => exact hQ a rfl _ hs
  | .error (.err _), _ => exact hE _ hs
  | .error (.stop e), hp => intro hz he; exact hp _ hs hz (by rw [he])
  | .error .noKey, _ => trivial

theorem ofCipher {r : Except Err α} (hp : ∀ t, P t → z → r ≠ .error .panic) (hQ : ∀ a, r = .ok a → ∀ t, P t → Q a t) :
    TP z P (ofCipher r : X ε S α) Q E := by
  intro s hs
  match r, hp with
  | .ok a, _ => exact hQ a rfl _ hs
  | .error e, hp => intro hz he; exact hp _ hs hz (by rw [he])

theorem unwrap {r : Option α} (hQ : ∀ a, r = some a → ∀ t, P t → Q a t) : TP z P (unwrapKey r : X ε S α) Q E := by
  intro s hs
  match r with
  | some a => exact hQ a rfl _ hs
  | none => trivial

theorem mapErr {m : X ε S α} (f : ε → ε') (h : TP z P m Q E) : TP z P (m.mapErr f) Q E := by
  intro s hs
  have := h s hs
  unfold X.mapErr
  rcases hm : m s with ⟨(e | e | _) | a, s'⟩ <;> rw [hm] at this <;> exact this

theorem attempt {m : X ε S α} {E' : S → Prop} (h : TP z P m Q E) :
    TP z P (m.attempt : X ε' S _) (fun r t => match r with | .ok a => Q a t | .error _ => E t) E' := by
  intro s hs
  have := h s hs
  unfold X.attempt
  rcases hm : m s with ⟨(e | e | _) | a, s'⟩ <;> rw [hm] at this <;> exact this

theorem ite {p : Prop} [Decidable p] {m m' : X ε S α} (h : p → TP z P m Q E) (h' : ¬ p → TP z P m' Q E) :
    TP z P (if p then m else m') Q E := by
  by_cases hp : p
  · rw [if_pos hp]; exact h hp
  · rw [if_neg hp]; exact h' hp

/-- A fact the precondition gives may be used. -/
theorem of_fact {m : X ε S α} {p : Prop} (hp : ∀ t, P t → p) (h : p → TP z P m Q E) : TP z P m Q E := fun s hs => h (hp s hs) s hs

theorem of_eq {m : X ε S α} (h : ∀ t, P t → TP z (fun u => u = t) m Q E) : TP z P m Q E := fun s hs => h s hs s rfl

/-- A call of the device. -/
theorem ofM {V : α → Prop} {m : M σ α} (h : NPV z V m) :
    TP z (fun _ => True) (X.ofM m) (fun a _ => z → V a) (fun _ => True) := by
  intro s _
  unfold X.ofM
  have h' := fun hz => h hz s
  rcases hm : m s with ⟨e | a, s'⟩
  · cases e
    case panic => intro hz; have := (h' hz).1; rw [hm] at this; exact absurd rfl this
    case hang => exact fun _ h => nomatch h
    all_goals trivial
  · intro hz; exact (h' hz).2 a (by rw [hm])

theorem internal {V : α → Prop} {m : M σ α} (h : NPV z V m) :
    TP z (fun _ => True) (internal m) (fun a _ => z → V a) (fun _ => True) := (ofM h).mapErr _

theorem onFst {m : X ε σ α} {P : τ → Prop} {V : α → Prop} (h : TP z (fun _ => True) m (fun a _ => z → V a) (fun _ => True)) :
    TP z (L2 P) (m.onFst : X ε (σ × τ) α) (fun a s => P s.2 ∧ (z → V a)) (L2 P) := by
  intro s hs
  have := h s.1 trivial
  unfold X.onFst
  rcases hm : m s.1 with ⟨(e | e | _) | a, s'⟩ <;> rw [hm] at this
  · exact hs
  · exact this
  · trivial
  · exact ⟨hs, this⟩

end TP

/-! ## The cipher -/

/-- The counter of the cipher after `k` blocks. -/
def GC (g : Aes128Gcm) (k : Nat) : Prop := ∃ m, blockNat g.counter = m * 2 ^ 32 + (1 + k)

theorem GC.new (key : Block) (iv : Vector UInt8 12) (aad : Vector UInt8 5) : GC (Aes128Gcm.new key iv aad) 0 :=
  ⟨_, (new_inv key iv aad).ctr⟩

theorem GC.crypt {g : Aes128Gcm} {k : Nat} (h : GC g k) (hk : k < 65534) (b : Block) : ∃ o g', g.cryptBlock b = .ok (o, g') ∧ GC g' (k + 1) := by
  obtain ⟨m, h⟩ := h
  obtain ⟨c, h1, h2⟩ := incrementCounter_ok g m (1 + k) (by omega) h
  unfold Aes128Gcm.cryptBlock
  rw [h1]
  exact ⟨_, { g with counter := c }, rfl, m, h2.trans (by rw [Nat.add_assoc 1 k 1])⟩

theorem GC.encrypt {g : Aes128Gcm} {k : Nat} (h : GC g k) (hk : k < 65534) (b : Block) :
    ∃ o g', g.encryptBlock b = .ok (o, g') ∧ GC g' (k + 1) := by
  obtain ⟨o, g', e, h'⟩ := h.crypt hk b
  unfold Aes128Gcm.encryptBlock
  rw [e]
  exact ⟨_, _, rfl, h'⟩

theorem GC.encryptRemainder {g : Aes128Gcm} {k : Nat} (h : GC g k) (hk : k < 65534) (b : Block) {n : Nat} (hn : n ≤ 16) :
    ∃ o g', g.encryptRemainder b n = .ok (o, g') ∧ GC g' (k + 1) := by
  obtain ⟨o, g', e, h'⟩ := h.crypt hk b
  unfold Aes128Gcm.encryptRemainder
  rw [if_neg (by omega), e]
  exact ⟨_, _, rfl, h'⟩

/-- Between 1 and 16 bytes are one block. -/
theorem GC.decrypt {g : Aes128Gcm} {k : Nat} (h : GC g k) (hk : k < 65534) {data : Bytes} (h1 : 1 ≤ data.length) (h2 : data.length ≤ 16) :
    ∃ o g', g.decrypt data = .ok (o, g') ∧ GC g' (k + 1) ∧ o.length = data.length := by
  unfold Aes128Gcm.decrypt
  by_cases hf : data.length = 16
  · have e1 : data.length / 16 = 1 := by omega
    rw [e1]
    have h' : GC { g with ghash := g.ghash.update (toBlock (data.take 16)) } k := h
    obtain ⟨o, g', e, hg⟩ := h'.crypt hk (toBlock (data.take 16))
    have e2 : data.drop (1 * 16) = [] := by apply List.drop_eq_nil_of_le; omega
    rw [e2]
    unfold Aes128Gcm.decryptChunks
    dsimp only
    rw [e]
    refine ⟨o.toList ++ [] ++ [], { g' with dataLen := g'.dataLen + data.length }, rfl, hg, ?_⟩
    simp; omega
  · have e1 : data.length / 16 = 0 := by omega
    rw [e1]
    have h' : GC { g with ghash := g.ghash.update (toBlock data) } k := h
    obtain ⟨o, g', e, hg⟩ := h'.crypt hk (toBlock data)
    have e2 : data.drop (0 * 16) = data := by simp
    rw [e2]
    have e3 : g.decryptChunks 0 data = .ok ([], g) := rfl
    have e4 : g.decryptRest data = .ok (o.toList.take data.length, g') := by
      unfold Aes128Gcm.decryptRest
      rw [if_neg (by intro h; rw [h] at h1; simp at h1)]
      dsimp only
      rw [e]
      rfl
    rw [e3]
    show ∃ o g', ((g.decryptRest data >>= _) = _ ∧ _)
    rw [e4]
    refine ⟨[] ++ o.toList.take data.length, { g' with dataLen := g'.dataLen + data.length }, rfl, hg, ?_⟩
    simp; omega

/-! ## The receive buffer -/

/-- A buffer that never held application data: nothing is wrapped, and at least `j` bytes follow the start of the handshake data. -/
structure Clean (n j : Nat) (b : Buffer) : Prop where
  size : b.buf.length = n
  head : b.head = 0
  ad : b.adTail = 0
  room : b.hsHead + j ≤ b.tail
  tail : b.tail < n

theorem Clean.mono {n j k : Nat} {b : Buffer} (h : Clean n j b) (hk : k ≤ j) : Clean n k b :=
  ⟨h.size, h.head, h.ad, by have := h.room; omega, h.tail⟩

theorem Clean.reset {n : Nat} {b : Buffer} (h : b.buf.length = n) (hn : 0 < n) : Clean n 0 b.reset := ⟨h, rfl, rfl, Nat.le_refl _, hn⟩

theorem Clean.extend {n j : Nat} {b : Buffer} (h : Clean n j b) (dbg : Bool) (src : Bytes) :
    b.extendFromSlice dbg src ≠ .error (.stop .panic) ∧
      ∀ b', b.extendFromSlice dbg src = .ok b' → Clean n (j + src.length) b' := by
  have hs := h.size; have hh := h.head; have ha := h.ad; have hr := h.room; have ht := h.tail
  have hn : b.n = n := hs
  unfold Buffer.extendFromSlice
  by_cases h1 : b.remain < src.length
  · rw [if_pos h1]; exact ⟨(fun h => nomatch h), (fun _ h => nomatch h)⟩
  rw [if_neg h1]
  have hlen : b.len = b.tail := by unfold Buffer.len; rw [hh, if_neg (by omega)]; omega
  have hrem : b.remain = n - 1 - b.tail := by unfold Buffer.remain Buffer.capacity; rw [hlen, hn]
  have hroom : b.room.1 = n - b.tail := by
    unfold Buffer.room
    split
    · rw [hn]
    · split
      · rw [hn]
      · omega
  have hmin : min src.length b.room.1 = src.length := by omega
  dsimp only
  rw [hmin, if_neg (by omega)]
  have hmod : (b.tail + src.length) % b.n = b.tail + src.length := by rw [hn]; exact Nat.mod_eq_of_lt (by omega)
  rw [hmod]
  have hl : (writeAt b.buf b.tail (src.take src.length)).length = b.buf.length := writeAt_length (by rw [List.length_take]; omega)
  have hl2 : (writeAt (writeAt b.buf b.tail (src.take src.length)) 0 (src.drop src.length)).length = n := by
    rw [writeAt_length (by rw [hl, List.length_drop]; omega), hl, hs]
  rw [if_neg]
  · refine ⟨(fun h => nomatch h), fun b' e => ?_⟩
    injection e with e
    subst e
    exact ⟨hl2, hh, ha, by show b.hsHead + _ ≤ b.tail + src.length; omega, by show b.tail + src.length < n; omega⟩
  · rintro ⟨-, h2, h3⟩
    have : src.length ≠ 0 := fun h => h2 (List.length_eq_zero_iff.mp h)
    omega

theorem Clean.popTail {n j : Nat} {b : Buffer} (h : Clean n (j + 1) b) : ∃ y b', b.popTail = some (y, b') ∧ Clean n j b' := by
  have hs := h.size; have hh := h.head; have ha := h.ad; have hr := h.room; have ht := h.tail
  unfold Buffer.popTail
  rw [if_neg (by simp [Buffer.isEmpty, hh]; omega)]
  refine ⟨_, _, rfl, hs, hh, ha, ?_, ?_⟩
  · show b.hsHead + j ≤ if b.tail = 0 then b.n - 1 else b.tail - 1
    rw [if_neg (by omega)]; omega
  · show (if b.tail = 0 then b.n - 1 else b.tail - 1) < n
    rw [if_neg (by omega)]; omega

theorem popTail_size {b b' : Buffer} {y : UInt8} (e : b.popTail = some (y, b')) : b'.buf.length = b.buf.length := by
  unfold Buffer.popTail at e
  split at e
  · simp at e
  · injection e with e; injection e with _ e; rw [← e]

theorem Clean.pop {n : Nat} {b : Buffer} (h : Clean n 0 b) :
    b.popHandshakeRecord ≠ .error (.stop .panic) ∧
      ∀ hdr r b', b.popHandshakeRecord = .ok (some ((hdr, r), b')) → Clean n 0 b' := by
  have hs := h.size; have hh := h.head; have ha := h.ad; have hr := h.room; have ht := h.tail
  have hn : b.n = n := hs
  unfold Buffer.popHandshakeRecord
  split
  · exact ⟨(fun h => nomatch h), (fun _ _ _ h => nomatch h)⟩
  rename_i l hl
  dsimp only
  generalize (#v[l.getD 0 0, l.getD 1 0, l.getD 2 0, l.getD 3 0] : HandshakeHeader) = hd
  by_cases h1 : b.capacity < (HandshakeHeader.lengthWithHeader hd).toNat
  · rw [if_pos h1]; exact ⟨(fun h => nomatch h), (fun _ _ _ h => nomatch h)⟩
  rw [if_neg h1]
  by_cases h2 : b.hsLen < (HandshakeHeader.lengthWithHeader hd).toNat
  · rw [if_pos h2]; exact ⟨(fun h => nomatch h), (fun _ _ _ h => nomatch h)⟩
  rw [if_neg h2]
  rw [hdr_lengthWithHeader] at h2
  have hhl : b.hsLen = b.tail - b.hsHead := by unfold Buffer.hsLen; rw [if_neg (by omega)]
  rw [hhl] at h2
  have hm : (b.hsHead + 4) % b.n = b.hsHead + 4 := by rw [hn]; exact Nat.mod_eq_of_lt (by omega)
  rw [hm]
  generalize (HandshakeHeader.length hd).toNat = k at h2
  have hlen : Buffer.len { b with hsHead := b.hsHead + 4 } = b.tail := by
    unfold Buffer.len
    show (if b.tail < b.head then _ else b.tail - b.head) = b.tail
    rw [hh, if_neg (by omega)]; omega
  have hm2 : (b.hsHead + 4 + k) % Buffer.n { b with hsHead := b.hsHead + 4 } = b.hsHead + 4 + k := by
    show (b.hsHead + 4 + k) % b.n = _
    rw [hn]; exact Nat.mod_eq_of_lt (by omega)
  have key : ∃ s b', Buffer.popHandshakeSlicesOfN { b with hsHead := b.hsHead + 4 } k = .ok (some (s, b')) ∧ Clean n 0 b' := by
    unfold Buffer.popHandshakeSlicesOfN
    rw [hlen, if_neg (by omega)]
    dsimp only
    rw [hm2]
    have hb : Clean n 0 (if b.hsHead + 4 + k = b.tail then
        ({ b with hsHead := b.adTail, tail := b.adTail } : Buffer) else { b with hsHead := b.hsHead + 4 + k }) := by
      split
      · exact ⟨hs, hh, ha, Nat.le_refl _, by show b.adTail < n; omega⟩
      · exact ⟨hs, hh, ha, by show b.hsHead + 4 + k + 0 ≤ b.tail; omega, ht⟩
    have hsl : k ≤ (asSlices b.buf b.tail (b.hsHead + 4)).1.length := by
      unfold asSlices
      split
      · have : k = 0 := by omega
        omega
      · rw [List.length_take, List.length_drop]; omega
    rw [if_pos hsl]
    exact ⟨_, _, rfl, hb⟩
  obtain ⟨s, b', e, hb⟩ := key
  rw [e]
  refine ⟨(fun h => nomatch h), fun hdr r b'' e => ?_⟩
  injection e with e; injection e with e; injection e with _ e
  rw [← e]; exact hb

/-- If `z`, the buffer is clean. -/
abbrev CB (z : Prop) (n j : Nat) : Buffer → Prop := fun b => z → Clean n j b

theorem tp_extend (n j : Nat) (dbg : Bool) (src : Bytes) :
    TP z (L2 (CB z n j)) (extendRx dbg src : X _ (σ × Buffer) Unit) (fun _ => L2 (CB z n (j + src.length))) (L2 (CB z n j)) := by
  intro s hs
  have e : extendRx dbg src s = match s.2.extendFromSlice dbg src with
      | .ok rx => (.ok (), (s.1, rx))
      | .error e => (.error e, s) := by
    unfold extendRx
    rw [X.bind_run]
    show (X.ofExcept (s.2.extendFromSlice dbg src) >>= fun rx => X.modify fun s => (s.1, rx)) s = _
    rw [X.bind_run]
    unfold X.ofExcept
    cases s.2.extendFromSlice dbg src <;> rfl
  rw [e]
  have := fun hz => (hs hz).extend dbg src
  rcases he : s.2.extendFromSlice dbg src with (e | e | _) | rx
  · exact hs
  · intro hz h; rw [h] at he; exact (this hz).1 he
  · trivial
  · exact fun hz => (this hz).2 _ he

theorem tp_popTail (n j : Nat) {E : σ × Buffer → Prop} :
    TP z (L2 (CB z n (j + 1))) (popTailRx : X ε (σ × Buffer) (Option UInt8)) (fun v s => CB z n j s.2 ∧ (z → v ≠ none)) E := by
  intro s hs
  unfold popTailRx
  have := fun hz => (hs hz).popTail
  rcases he : s.2.popTail with _ | ⟨y, rx⟩
  · refine ⟨fun hz => ?_, fun hz => ?_⟩ <;> (obtain ⟨_, _, e, _⟩ := this hz; rw [he] at e; exact nomatch e)
  · refine ⟨fun hz => ?_, fun _ h => nomatch h⟩
    obtain ⟨_, _, e, h⟩ := this hz
    rw [he] at e; injection e with e; injection e with _ e
    rw [e]; exact h

theorem tp_popContentType (n j : Nat) {E : σ × Buffer → Prop} :
    TP z (L2 (CB z n (j + 1))) (popContentType : X _ (σ × Buffer) _) (fun _ => L2 (CB z n j)) E := by
  refine (tp_popTail n j).bind fun byte => ?_
  cases byte with
  | none => exact TP.stop fun _ h hz => absurd rfl (h.2 hz)
  | some byte => exact TP.pure _ fun _ h => h.1

theorem min16_nat (a b : UInt16) : (min16 a b).toNat = min a.toNat b.toNat := by
  unfold min16
  split
  · rename_i h; rw [UInt16.le_iff_toNat_le] at h; omega
  · rename_i h; rw [UInt16.le_iff_toNat_le] at h; omega

theorem tp_decryptLoop {b : Bus σ} (hb : z → Device b) (n : Nat) (dbg : Bool) (sn : Sn) (fuel : Nat) : ∀ g rd remain j k,
    GC g k → k + remain.toNat < 65534 → remain ≠ 0 →
    TP z (L2 (CB z n j)) (decryptLoop dbg b sn fuel g rd remain) (fun _ => L2 (CB z n (j + remain.toNat - 1))) (L2 (CB z n 0)) := by
  induction fuel with
  | zero => intros; exact TP.hang
  | succ fuel ih =>
    intro g rd remain j k hg hk h0
    have h0' : remain.toNat ≠ 0 := fun h => h0 (UInt16.toNat_inj.mp h)
    have hd : (min16 16 remain).toNat = min 16 remain.toNat := min16_nat _ _
    have hsub : (remain - min16 16 remain).toNat = remain.toNat - (min16 16 remain).toNat := by
      rw [u16_sub_toNat]
      have := u16_lt remain
      omega
    unfold decryptLoop
    dsimp only
    refine TP.bind (R := fun bytes s => CB z n j s.2 ∧ (z → bytes.length = (min16 16 remain).toNat)) ?_ fun bytes => ?_
    · exact (TP.onFst (TP.internal (NPV.of fun hz => fine_snRxBuf (hb hz) _ _ _))).postE fun _ h hz => (h hz).mono (Nat.zero_le _)
    by_cases hl : bytes.length = (min16 16 remain).toNat
    · obtain ⟨o, g', e, hg', ho⟩ := hg.decrypt (data := bytes) (by omega) (by omega) (by omega)
      rw [e]
      refine TP.bind (R := fun v s => CB z n j s.2 ∧ v = (o, g')) (TP.ofCipher (fun _ _ _ h => nomatch h) ?_) fun v => ?_
      · intro a ha t ht; injection ha with ha; exact ⟨ht.1, ha.symm⟩
      refine TP.of_fact (p := v = (o, g')) (fun _ h => h.2) fun hv => ?_
      subst hv
      dsimp only
      refine TP.bind (R := fun _ => L2 (CB z n (j + (min16 16 remain).toNat))) ?_ fun _ => ?_
      · refine (tp_extend n j dbg o).conseq (fun _ h => h.1) (fun _ _ h hz => ?_) fun _ h hz => (h hz).mono (Nat.zero_le _)
        have := h hz; rwa [ho, hl] at this
      refine TP.ite (fun hr => ?_) fun hr => ?_
      · have hr' : (remain - min16 16 remain).toNat = 0 := by rw [hr]; rfl
        refine TP.bind (R := fun _ => L2 (CB z n (j + remain.toNat - 1))) ?_ fun _ => TP.pure _ fun _ h => h
        refine (tp_popContentType n (j + remain.toNat - 1)).pre fun _ h hz => (h hz).mono ?_
        omega
      · have hr' : (remain - min16 16 remain).toNat ≠ 0 := fun h => hr (UInt16.toNat_inj.mp h)
        refine (ih g' _ _ (j + (min16 16 remain).toNat) (k + 1) hg' (by omega) hr).post fun _ _ h hz => (h hz).mono ?_
        omega
    · refine TP.of_fact (p := z → False) (fun _ h hz => hl (h.2 hz)) fun hz => ?_
      intro s _
      split
      · exact fun h => (hz h).elim
      · exact fun h => (hz h).elim
      · exact fun h => (hz h).elim
      · trivial

theorem tp_checkTag {b : Bus σ} (hb : z → Device b) (sn : Sn) (ct g rd) :
    TP z (fun _ => True) (checkTag b sn ct g rd) (fun _ _ => z → True) (fun _ => True) := by
  have t : ∀ {α : Type} {m : M σ α}, (z → Ok m) → TP z (fun _ => True) (internal m) (fun _ _ => True) (fun _ => True) :=
    fun h => (TP.internal (NPV.of h)).post fun _ _ _ => trivial
  refine (t fun hz => (fine_snRxBuf (hb hz) _ _ _).mono fun _ _ => trivial).bind fun _ =>
    (t fun hz => fine_setSnRxRd (hb hz) _ _).bind fun _ => (t fun hz => fine_setSnRxRd (hb hz) _ _).bind fun _ =>
    (t fun hz => fine_setSnCr (hb hz) _ _).bind fun _ => ?_
  exact TP.ite (fun _ => TP.pure _ fun _ _ _ => trivial) fun _ => TP.throw _ fun _ _ => trivial

theorem tp_decryptRecord {b : Bus σ} (hb : z → Device b) (n : Nat) (dbg : Bool) (sn : Sn) (key nonce) (header : RecordHeader)
    (hl : z → header.length.toNat ≤ 65000) :
    TP z (L2 (CB z n 0)) (decryptRecordInplace dbg b sn key nonce header)
      (fun _ s => CB z n (header.length.toNat - 17) s.2 ∧ 17 ≤ header.length.toNat) (L2 (CB z n 0)) := by
  by_cases hz : z
  · have hl := hl hz
    refine TP.bind (R := fun _ => L2 (CB z n 0)) ((TP.onFst (TP.internal (NPV.of fun hz => fine_snRxRsr (hb hz) _))).post
      fun _ _ h => h.1) fun _ => TP.ite (fun _ => TP.throw _ fun _ h => h) fun _ =>
      TP.bind (R := fun _ => L2 (CB z n 0)) ((TP.onFst (TP.internal (NPV.of fun hz => fine_snRxRd (hb hz) _))).post
      fun _ _ h => h.1) fun _ => TP.ite (fun _ => TP.throw _ fun _ h => h) fun h0 => ?_
    have hrem : (if 16 ≤ header.length then header.length - 16 else 0 : UInt16).toNat = header.length.toNat - 16 := by
      split
      · rename_i h; rw [UInt16.le_iff_toNat_le] at h
        rw [u16_sub_toNat]
        have := u16_lt header.length
        have e : (16 : UInt16).toNat = 16 := rfl
        omega
      · rename_i h; rw [UInt16.le_iff_toNat_le] at h
        have e : (16 : UInt16).toNat = 16 := rfl
        have e' : (0 : UInt16).toNat = 0 := rfl
        omega
    have h0' : (if 16 ≤ header.length then header.length - 16 else 0 : UInt16).toNat ≠ 0 := fun h => h0 (UInt16.toNat_inj.mp h)
    refine TP.bind (R := fun _ s => CB z n (header.length.toNat - 17) s.2 ∧ 17 ≤ header.length.toNat) ?_ fun v => ?_
    · refine (tp_decryptLoop hb n dbg sn _ _ _ _ 0 0 (GC.new _ _ _) (by omega) h0).post fun _ _ h => ⟨fun hz => (h hz).mono ?_, by omega⟩
      omega
    · exact (TP.onFst (P := fun t => CB z n (header.length.toNat - 17) t ∧ 17 ≤ header.length.toNat) (tp_checkTag hb _ _ _ _)).conseq
        (fun _ h => h) (fun _ _ h => h.1) fun _ h hz => (h.1 hz).mono (Nat.zero_le _)
  · intro s _
    have nz : ∀ {p : Prop}, z → p := fun h => absurd h hz
    by_cases h17 : 17 ≤ header.length.toNat
    · split
      · exact ⟨nz, h17⟩
      · exact nz
      · exact nz
      · trivial
    · have hrem : (if 16 ≤ header.length then header.length - 16 else 0 : UInt16) = 0 := by
        split
        · rename_i h; rw [UInt16.le_iff_toNat_le] at h
          apply UInt16.toNat_inj.mp
          have e : (16 : UInt16).toNat = 16 := rfl
          have e' : (0 : UInt16).toNat = 0 := rfl
          rw [u16_sub_toNat]
          have := u16_lt header.length
          omega
        · rfl
      have main : TP z (fun _ => True) (decryptRecordInplace dbg b sn key nonce header) (fun _ _ => False) (fun _ => True) := by
        have t : ∀ {α : Type} {m : M σ α}, TP z (fun _ => True) ((internal m).onFst : X _ (σ × Buffer) α) (fun _ _ => True) (fun _ => True) :=
          fun {α m} => (TP.onFst (P := fun _ => True) (V := fun _ => True) (TP.internal fun h => nz h)).post fun _ _ _ => trivial
        refine t.bind fun _ => TP.ite (fun _ => TP.throw _ fun _ h => h) fun _ => t.bind fun _ => ?_
        dsimp only
        rw [hrem, if_pos rfl]
        exact TP.throw _ fun _ h => h
      have := main s trivial
      split
      · rename_i e; rw [e] at this; exact this.elim
      · exact nz
      · exact nz
      · trivial

end Verif.Tls
