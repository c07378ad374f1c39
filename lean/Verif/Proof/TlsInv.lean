import Verif.Model.Tls.Client
import Verif.Proof.X
import Verif.Thm.TlsReassembly
import Verif.Thm.ServerHello
/-!
# Invariants of the TLS client, for every bus
-/
namespace Verif.Tls
open Verif Hl

variable {σ τ : Type} {x : Crypto} {ε ε' α β : Type}

/-- From `P`, the computation ends with `Q` and a value, or with `E` and an error, or panics, but never needs a missing key. -/
def Tri (P : τ → Prop) (m : X ε (σ × τ) α) (Q : α → τ → Prop) (E : τ → Prop) : Prop :=
  ∀ s, P s.2 → match m s with
    | (.ok a, s') => Q a s'.2
    | (.error (.err _), s') => E s'.2
    | (.error (.stop _), _) => True
    | (.error .noKey, _) => False

/-- The computation never needs a missing key. -/
def NK (m : X ε σ α) : Prop := ∀ s, (m s).1 ≠ .error .noKey

namespace Tri
variable {P : τ → Prop} {Q : α → τ → Prop} {E : τ → Prop}

theorem conseq {m : X ε (σ × τ) α} {P' : τ → Prop} {Q' : α → τ → Prop} {E' : τ → Prop} (h : Tri P m Q E)
    (hP : ∀ t, P' t → P t) (hQ : ∀ a t, Q a t → Q' a t) (hE : ∀ t, E t → E' t) : Tri P' m Q' E' := by
  intro s hs
  have := h s (hP _ hs)
  rcases hm : m s with ⟨(e | e | _) | a, s'⟩ <;> rw [hm] at this
  · exact hE _ this
  · trivial
  · exact this
  · exact hQ _ _ this

theorem pre {m : X ε (σ × τ) α} {P' : τ → Prop} (h : Tri P m Q E) (hP : ∀ t, P' t → P t) : Tri P' m Q E :=
  h.conseq hP (fun _ _ h => h) (fun _ h => h)

theorem post {m : X ε (σ × τ) α} {Q' : α → τ → Prop} (h : Tri P m Q E) (hQ : ∀ a t, Q a t → Q' a t) : Tri P m Q' E :=
  h.conseq (fun _ h => h) hQ (fun _ h => h)

theorem pure (a : α) (h : ∀ t, P t → Q a t) : Tri P (Pure.pure a : X ε (σ × τ) α) Q E := fun s hs => h s.2 hs

theorem bind {m : X ε (σ × τ) β} {f : β → X ε (σ × τ) α} {R : β → τ → Prop} (hm : Tri P m R E) (hf : ∀ b, Tri (R b) (f b) Q E) :
    Tri P (m >>= f) Q E := by
  intro s hs
  have := hm s hs
  rw [X.bind_run]
  rcases h : m s with ⟨(e | e | _) | a, s'⟩ <;> rw [h] at this
  · exact this
  · trivial
  · exact this
  · exact hf a s' this

theorem throw (e : ε) (h : ∀ t, P t → E t) : Tri P (X.throw e : X ε (σ × τ) α) Q E := fun s hs => h s.2 hs

theorem stop (e : Err) : Tri P (X.ofExcept (.error (.stop e)) : X ε (σ × τ) α) Q E := fun _ _ => trivial

theorem ofExcept {r : Except (Fail ε) α} (hk : r ≠ .error .noKey) (hQ : ∀ a, r = .ok a → ∀ t, P t → Q a t) (hE : ∀ t, P t → E t) :
    Tri P (X.ofExcept r : X ε (σ × τ) α) Q E := by
  intro s hs
  unfold X.ofExcept
  match r with
  | .ok a => exact hQ a rfl _ hs
  | .error (.err _) => exact hE _ hs
  | .error (.stop _) => trivial
  | .error .noKey => exact absurd rfl hk

theorem ofCipher {r : Except Err α} (hQ : ∀ a, r = .ok a → ∀ t, P t → Q a t) : Tri P (ofCipher r : X ε (σ × τ) α) Q E := by
  intro s hs
  match r with
  | .ok a => exact hQ a rfl _ hs
  | .error _ => trivial

theorem unwrap {r : Option α} (hk : r ≠ none) (hQ : ∀ a, r = some a → ∀ t, P t → Q a t) :
    Tri P (unwrapKey r : X ε (σ × τ) α) Q E := by
  intro s hs
  match r with
  | some a => exact hQ a rfl _ hs
  | none => exact absurd rfl hk

theorem onFst {m : X ε σ α} (h : NK m) : Tri P (m.onFst : X ε (σ × τ) α) (fun _ => P) P := by
  intro s hs
  have := h s.1
  unfold X.onFst
  rcases hm : m s.1 with ⟨(e | e | _) | a, s'⟩ <;> rw [hm] at this
  · exact hs
  · trivial
  · exact absurd rfl this
  · exact hs

theorem mapErr {m : X ε (σ × τ) α} (f : ε → ε') (h : Tri P m Q E) : Tri P (m.mapErr f) Q E := by
  intro s hs
  have := h s hs
  unfold X.mapErr
  rcases hm : m s with ⟨(e | e | _) | a, s'⟩ <;> rw [hm] at this
  · exact this
  · trivial
  · exact this
  · exact this

theorem attempt {m : X ε (σ × τ) α} {E' : τ → Prop} (h : Tri P m Q E) :
    Tri P (m.attempt : X ε' (σ × τ) _) (fun r t => match r with | .ok a => Q a t | .error _ => E t) E' := by
  intro s hs
  have := h s hs
  unfold X.attempt
  rcases hm : m s with ⟨(e | e | _) | a, s'⟩ <;> rw [hm] at this
  · exact this
  · trivial
  · exact this
  · exact this

theorem ite {p : Prop} [Decidable p] {m m' : X ε (σ × τ) α} (h : p → Tri P m Q E) (h' : ¬ p → Tri P m' Q E) :
    Tri P (if p then m else m') Q E := by
  by_cases hp : p
  · rw [if_pos hp]; exact h hp
  · rw [if_neg hp]; exact h' hp

/-- A precondition may be used. -/
theorem of_pre {m : X ε (σ × τ) α} (h : ∀ t, P t → Tri (fun u => u = t) m Q E) : Tri P m Q E := fun s hs => h s.2 hs s rfl

end Tri

/-! ## `NK` -/

theorem NK.ofM (m : M σ α) : NK (X.ofM m) := by
  intro s
  unfold X.ofM
  rcases m s with ⟨e | a, s'⟩
  · cases e <;> simp [X.ofErr]
  · simp

theorem NK.mapErr {m : X ε σ α} (f : ε → ε') (h : NK m) : NK (m.mapErr f) := by
  intro s
  have := h s
  unfold X.mapErr
  rcases hm : m s with ⟨(e | e | _) | a, s'⟩ <;> rw [hm] at this <;> simp [X.mapFail] at this ⊢

theorem NK.bind {m : X ε σ α} {f : α → X ε σ β} (h : NK m) (hf : ∀ a, NK (f a)) : NK (m >>= f) := by
  intro s
  have := h s
  rw [X.bind_run]
  rcases hm : m s with ⟨e | a, s'⟩ <;> rw [hm] at this
  · simp at this ⊢; exact this
  · exact hf a s'

theorem NK.pure (a : α) : NK (Pure.pure a : X ε σ α) := by intro s; simp [X.pure_run]

theorem NK.ofCipher (r : Except Err α) : NK (ofCipher r : X ε σ α) := by
  intro s; cases r <;> simp [Verif.Tls.ofCipher, X.ofExcept, X.pure_run]

theorem NK.internal (m : M σ α) : NK (internal m) := (NK.ofM m).mapErr _

theorem NK.throw (e : ε) : NK (X.throw e : X ε σ α) := by intro s; simp [X.throw]

theorem NK.writeChunks (b : Bus σ) (k : Nat) : ∀ g r data, NK (writeChunks b k g r data) := by
  induction k with
  | zero => intros; exact NK.pure _
  | succ k ih =>
    intro g r data
    exact (NK.ofCipher _).bind fun _ => (NK.ofM _).bind fun _ => ih _ _ _

theorem NK.encryptBlocksInplace (b : Bus σ) (sn : Sn) (k : Nat) : ∀ g head, NK (encryptBlocksInplace b sn k g head) := by
  induction k with
  | zero => intros; exact NK.pure _
  | succ k ih =>
    intro g head
    exact (NK.ofM _).bind fun _ => (NK.ofCipher _).bind fun _ => (NK.ofM _).bind fun _ => ih _ _

theorem NK.encryptRecordInplace (b : Bus σ) (sn : Sn) (key nonce head tail ct) :
    NK (encryptRecordInplace b sn key nonce head tail ct) :=
  (NK.ofM _).bind fun _ => (NK.encryptBlocksInplace _ _ _ _ _).bind fun _ => (NK.ofM _).bind fun _ => (NK.ofCipher _).bind fun _ =>
  (NK.ofM _).bind fun _ => (NK.ofM _).bind fun _ => (NK.ofM _).bind fun _ => NK.ofM _

theorem NK.sendEncryptedRecord (b : Bus σ) (sn : Sn) (kn) (ct : ContentType) (data : Bytes) (h : kn ≠ none) :
    NK (sendEncryptedRecord b sn kn ct data) := by
  unfold Verif.Tls.sendEncryptedRecord
  split
  · intro s; simp [X.ofExcept]
  · refine (NK.ofM _).bind fun _ => (NK.ofM _).bind fun _ => ?_
    cases kn with
    | none => exact absurd rfl h
    | some kn =>
      exact (NK.pure _).bind fun _ => (NK.writeChunks _ _ _ _ _).bind fun _ => (NK.ofCipher _).bind fun _ => (NK.ofM _).bind fun _ =>
        (NK.ofM _).bind fun _ => NK.ofM _

/-! ## The client -/

section client
variable {P : Client x → Prop} {Q : α → Client x → Prop} {E : Client x → Prop}

theorem Tri.getC_bind {f : Client x → X ε (σ × Client x) α} (h : ∀ c, P c → Tri (fun u => u = c) (f c) Q E) :
    Tri P (getC >>= f) Q E := fun s hs => h s.2 hs s rfl

theorem Tri.modC {R : Unit → Client x → Prop} {f : Client x → Client x} (h : ∀ c, P c → R () (f c)) :
    Tri P (modC f : X ε (σ × Client x) Unit) R E := fun s hs => h s.2 hs

theorem Tri.onBus (m : M σ α) : Tri P (onBus m : X _ (σ × Client x) α) (fun _ => P) P := Tri.onFst (NK.internal m)

theorem Tri.onHl (m : M σ α) : Tri P (onHl m : X _ (σ × Client x) α) (fun _ => P) P := Tri.onFst ((NK.ofM m).mapErr _)

end client

/-! ## The receive buffer -/

/-- The positions are in range and the size is `n`. -/
structure BOk (n : Nat) (b : Buffer) : Prop where
  size : b.buf.length = n
  head : b.head < n
  tail : b.tail < n
  ad : b.adTail < n

theorem BOk.reset {n : Nat} {b : Buffer} (h : BOk n b) : BOk n b.reset :=
  have := h.head
  ⟨h.size, by show 0 < n; omega, by show 0 < n; omega, by show 0 < n; omega⟩

theorem BOk.extend {n : Nat} {b b' : Buffer} {dbg : Bool} {src : Bytes} (h : BOk n b) (e : b.extendFromSlice dbg src = .ok b') :
    BOk n b' := by
  unfold Buffer.extendFromSlice at e
  have h1 := h.size; have h2 := h.head; have h3 := h.tail
  have hn : b.n = n := h1
  split at e
  · simp at e
  · dsimp only at e
    split at e
    · simp at e
    · rename_i h4
      split at e
      · simp at e
      · injection e with e
        subst e
        have r1 : b.room.1 ≤ n - b.tail := by
          unfold Buffer.room
          rw [hn]
          split
          · exact Nat.le_refl _
          · split
            · exact Nat.le_refl _
            · show b.head - b.tail ≤ n - b.tail; omega
        have r2 : b.room.2 ≤ n := by
          unfold Buffer.room
          split
          · show b.tail ≤ n; omega
          · split
            · show b.head ≤ n; omega
            · exact Nat.zero_le _
        have l1 : (writeAt b.buf b.tail (src.take (min src.length b.room.1))).length = b.buf.length :=
          writeAt_length (by rw [List.length_take]; omega)
        refine ⟨?_, h2, ?_, h.ad⟩
        · show (writeAt (writeAt b.buf b.tail (src.take (min src.length b.room.1))) 0 (src.drop (min src.length b.room.1))).length = n
          rw [writeAt_length (by rw [l1, List.length_drop]; omega), l1, h1]
        · show (b.tail + src.length) % b.n < n
          rw [hn]; exact Nat.mod_lt _ (by omega)

theorem BOk.popTail {n : Nat} {b b' : Buffer} {y : UInt8} (h : BOk n b) (e : b.popTail = some (y, b')) : BOk n b' := by
  unfold Buffer.popTail at e
  have h1 : b.n = n := h.size
  have h3 := h.tail
  split at e
  · simp at e
  · injection e with e
    injection e with _ e
    subst e
    refine ⟨h.size, h.head, ?_, h.ad⟩
    show (if b.tail = 0 then b.n - 1 else b.tail - 1) < n
    rw [h1]; split <;> omega

theorem BOk.pop {n : Nat} {b b' : Buffer} {hdr : HandshakeHeader} {r : CircleReader} (h : BOk n b)
    (e : b.popHandshakeRecord = .ok (some ((hdr, r), b'))) :
    BOk n b' ∧ (∃ a d, r = CircleReader.new a d ∧ (a ++ d).length = hdr.length.toNat) ∧ hdr.length.toNat + 5 ≤ n := by
  unfold Buffer.popHandshakeRecord at e
  have h1 : b.n = n := h.size
  split at e
  · simp at e
  · rename_i l hl
    dsimp only at e
    generalize (#v[l.getD 0 0, l.getD 1 0, l.getD 2 0, l.getD 3 0] : HandshakeHeader) = hd at e
    split at e
    · simp at e
    · rename_i hc
      split at e
      · simp at e
      · split at e
        · simp at e
        · simp at e
        · rename_i s b2 hs
          injection e with e; injection e with e; injection e with e e2; injection e with e0 e1
          subst e0 e1 e2
          have hcap : (HandshakeHeader.length hd).toNat + 5 ≤ n := by
            rw [hdr_lengthWithHeader] at hc
            unfold Buffer.capacity at hc
            rw [h1] at hc
            have := h.head
            omega
          unfold Buffer.popHandshakeSlicesOfN at hs
          split at hs
          · simp at hs
          · dsimp only at hs
            have hb : BOk n (if (((b.hsHead + 4) % b.n + (HandshakeHeader.length hd).toNat) % Buffer.n { b with hsHead := (b.hsHead + 4) % b.n }) = b.tail then
                ({ b with hsHead := b.adTail, tail := b.adTail } : Buffer)
                else { b with hsHead := (((b.hsHead + 4) % b.n + (HandshakeHeader.length hd).toNat) % Buffer.n { b with hsHead := (b.hsHead + 4) % b.n }) }) := by
              split
              · exact ⟨h.size, h.head, h.ad, h.ad⟩
              · exact ⟨h.size, h.head, h.tail, h.ad⟩
            split at hs
            · injection hs with hs; injection hs with hs; injection hs with e1 e2
              subst e1 e2
              exact ⟨hb, ⟨_, _, rfl, by rw [List.append_nil, List.length_take]; omega⟩, hcap⟩
            · split at hs
              · injection hs with hs; injection hs with hs; injection hs with e1 e2
                subst e1 e2
                exact ⟨hb, ⟨_, _, rfl, by dsimp only; rw [List.length_append, List.length_take]; omega⟩, hcap⟩
              · simp at hs

theorem pop_noKey (b : Buffer) : b.popHandshakeRecord ≠ .error .noKey := by
  unfold Buffer.popHandshakeRecord
  split
  · simp
  · dsimp only
    split
    · simp
    · split
      · simp
      · split <;> simp

/-- The triple of the buffer: it stays in order. -/
abbrev TriB (n : Nat) (m : X ε (σ × Buffer) α) : Prop := Tri (BOk n) m (fun _ => BOk n) (BOk n)

theorem TriB.extend (n : Nat) (dbg : Bool) (src : Bytes) : TriB n (extendRx dbg src : X _ (σ × Buffer) Unit) := by
  intro s hs
  have e : extendRx dbg src s = match s.2.extendFromSlice dbg src with
      | .ok rx => (.ok (), (s.1, rx))
      | .error e => (.error e, s) := by
    unfold extendRx
    rw [X.bind_run]
    show (X.ofExcept (s.2.extendFromSlice dbg src) >>= fun rx => X.modify fun s => (s.1, rx)) s = _
    rw [X.bind_run]
    unfold X.ofExcept
    cases s.2.extendFromSlice dbg src <;> rfl
  rw [e]
  rcases he : s.2.extendFromSlice dbg src with (e | e | _) | rx
  · exact hs
  · trivial
  · exfalso
    unfold Buffer.extendFromSlice at he
    split at he
    · simp at he
    · dsimp only at he
      split at he
      · simp at he
      · split at he <;> simp at he
  · exact hs.extend he

theorem TriB.popTail (n : Nat) : TriB n (popTailRx : X ε (σ × Buffer) (Option UInt8)) := by
  intro s hs
  unfold popTailRx
  rcases he : s.2.popTail with _ | ⟨y, rx⟩
  · exact hs
  · exact hs.popTail he

theorem TriB.popContentType (n : Nat) : TriB n (popContentType : X _ (σ × Buffer) _) := by
  refine (TriB.popTail n).bind fun byte => ?_
  cases byte with
  | none => exact Tri.stop _
  | some byte => exact Tri.pure _ fun _ h => h

theorem TriB.decryptLoop (n : Nat) (dbg : Bool) (b : Bus σ) (sn : Sn) (fuel : Nat) : ∀ g rd remain,
    TriB n (decryptLoop dbg b sn fuel g rd remain) := by
  induction fuel with
  | zero => intros; exact Tri.stop _
  | succ fuel ih =>
    intro g rd remain
    refine (Tri.onFst (NK.internal _)).bind fun _ => (Tri.ofCipher (Q := fun _ => BOk n) fun _ _ _ h => h).bind fun _ =>
      (TriB.extend n _ _).bind fun _ => Tri.ite (fun _ => ?_) fun _ => ih _ _ _
    exact (TriB.popContentType n).bind fun _ => Tri.pure _ fun _ h => h

theorem NK.checkTag (b : Bus σ) (sn : Sn) (ct g rd) : NK (checkTag b sn ct g rd) := by
  refine (NK.internal _).bind fun _ => (NK.internal _).bind fun _ => (NK.internal _).bind fun _ => (NK.internal _).bind fun _ => ?_
  split
  · exact NK.pure _
  · exact NK.throw _

theorem TriB.decryptRecord (n : Nat) (dbg : Bool) (b : Bus σ) (sn : Sn) (key nonce header) :
    TriB n (decryptRecordInplace dbg b sn key nonce header) := by
  refine (Tri.onFst (NK.internal _)).bind fun _ => Tri.ite (fun _ => Tri.throw _ fun _ h => h) fun _ =>
    (Tri.onFst (NK.internal _)).bind fun _ => Tri.ite (fun _ => Tri.throw _ fun _ h => h) fun _ =>
    (TriB.decryptLoop n _ _ _ _ _ _ _).bind fun _ => Tri.onFst (NK.checkTag _ _ _ _ _)

theorem Tri.onRx {n : Nat} {P : Client x → Prop} {m : X ε (σ × Buffer) α} (h : TriB n m) (hB : ∀ c, P c → BOk n c.rx)
    (hP : ∀ c rx, P c → BOk n rx → P { c with rx }) : Tri P (onRx m : X ε (σ × Client x) α) (fun _ => P) P := by
  intro s hs
  have := h (s.1, s.2.rx) (hB _ hs)
  unfold Verif.Tls.onRx
  rcases hm : m (s.1, s.2.rx) with ⟨(e | e | _) | a, s'⟩ <;> rw [hm] at this
  · exact hP _ _ hs this
  · trivial
  · exact this
  · exact hP _ _ hs this

end Verif.Tls
