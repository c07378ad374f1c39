import Verif.Proof.TraceClients
import Verif.Proof.X
import Verif.Model.Tls.Client
/-!
# The accesses of a TLS client
-/
namespace Verif.Tls
open Verif Hl
open _root_.Verif.Spec (Device Access errorOf traceBus OfSocket OfCommon OnlyWrites Reported NoneFailed)
open Verif.Thm (T0 only_nil only_append closed_trace)

theorem sound_nil : NoneFailed [] := fun _ h => nomatch h
theorem sound_append {es es' : List Access} (h : NoneFailed es) (h' : NoneFailed es') : NoneFailed (es ++ es') := fun a ha =>
  (List.mem_append.mp ha).elim (h a) (h' a)
theorem sound_of {α : Type} {es : List Access} {r : Except Err α} (h : Reported es r) {a : α} (hr : r = .ok a) : NoneFailed es := by
  rcases h with h | ⟨_, _, x, _, _, _, h⟩
  · exact h.1
  · rw [hr] at h; exact nomatch h

section
variable {σ ε ε' τ α β : Type} {k : Prop} {W : Access → Prop}

/-- What `m` does to the list of accesses, from states with `P`: `Q` afterwards, or `E` if it fails.  If `k`, no access fails if `m`
succeeds. -/
def XC (k : Prop) (W : Access → Prop) (P : τ → Prop) (m : X ε ((σ × List Access) × τ) α) (Q : α → τ → Prop) (E : τ → Prop) : Prop :=
  ∀ d t, P t → ∃ es, (m (d, t)).2.1.2 = d.2 ++ es ∧ OnlyWrites W es ∧
    (∀ a, (m (d, t)).1 = .ok a → Q a (m (d, t)).2.2 ∧ (k → NoneFailed es)) ∧ ∀ e, (m (d, t)).1 = .error e → E (m (d, t)).2.2

/-- The same on the device alone. -/
def X0 (W : Access → Prop) (V : α → Prop) (m : X ε (σ × List Access) α) : Prop :=
  ∀ d, ∃ es, (m d).2.2 = d.2 ++ es ∧ OnlyWrites W es ∧ ∀ a, (m d).1 = .ok a → V a ∧ NoneFailed es

variable {P E : τ → Prop} {Q : α → τ → Prop} {V : α → Prop}

namespace XC

theorem conseq {m : X ε ((σ × List Access) × τ) α} {P' E' : τ → Prop} {Q' : α → τ → Prop} (h : XC k W P m Q E) (hP : ∀ t, P' t → P t)
    (hQ : ∀ a t, Q a t → Q' a t) (hE : ∀ t, E t → E' t) : XC k W P' m Q' E' := fun d t ht => by
  obtain ⟨es, h1, h2, h3, h4⟩ := h d t (hP t ht)
  exact ⟨es, h1, h2, fun a ha => ⟨hQ _ _ (h3 a ha).1, (h3 a ha).2⟩, fun e he => hE _ (h4 e he)⟩
/-- What never succeeds. -/
theorem never {m : X ε ((σ × List Access) × τ) α} (h : XC False W P m (fun _ _ => False) E) : XC k W P m Q E := fun d t ht => by
  obtain ⟨es, h1, h2, h3, h4⟩ := h d t ht
  exact ⟨es, h1, h2, fun a ha => (h3 a ha).1.elim, h4⟩
theorem loose {m : X ε ((σ × List Access) × τ) α} (h : XC k W P m Q E) : XC False W P m Q E := fun d t ht => by
  obtain ⟨es, h1, h2, h3, h4⟩ := h d t ht
  exact ⟨es, h1, h2, fun a ha => ⟨(h3 a ha).1, False.elim⟩, h4⟩
/-- Nothing is accessed. -/
theorem still {m : X ε ((σ × List Access) × τ) α} (h : ∀ d t, P t → (m (d, t)).2.1 = d ∧ (∀ a, (m (d, t)).1 = .ok a → Q a (m (d, t)).2.2) ∧
    ∀ e, (m (d, t)).1 = .error e → E (m (d, t)).2.2) : XC k W P m Q E := fun d t ht =>
  ⟨[], by rw [(h d t ht).1, List.append_nil], only_nil, fun a ha => ⟨(h d t ht).2.1 a ha, fun _ => sound_nil⟩, (h d t ht).2.2⟩
theorem pure {a : α} (h : ∀ t, P t → Q a t) : XC k W P (Pure.pure a : X ε ((σ × List Access) × τ) α) Q E :=
  still fun _ t ht => ⟨rfl, fun b hb => by injection hb with hb; subst hb; exact h t ht, fun _ h => nomatch h⟩
theorem ofExcept {r : Except (Fail ε) α} (hQ : ∀ a, r = .ok a → ∀ t, P t → Q a t) (hE : ∀ t, P t → E t) :
    XC k W P (X.ofExcept r : X ε ((σ × List Access) × τ) α) Q E :=
  still fun _ t ht => ⟨rfl, fun a ha => hQ a ha t ht, fun _ _ => hE t ht⟩
theorem throw {e : ε} (hE : ∀ t, P t → E t) : XC k W P (X.throw e : X ε ((σ × List Access) × τ) α) Q E :=
  still fun _ t ht => ⟨rfl, fun _ h => (nomatch h), fun _ _ => hE t ht⟩
theorem bind {m : X ε ((σ × List Access) × τ) β} {f : β → X ε ((σ × List Access) × τ) α} {R : β → τ → Prop} (hm : XC k W P m R E)
    (hf : ∀ b, XC k W (R b) (f b) Q E) : XC k W P (m >>= f) Q E := fun d t ht => by
  obtain ⟨es, h1, h2, h3, h4⟩ := hm d t ht
  rw [X.bind_run]
  rcases e : m (d, t) with ⟨e' | a, d', t'⟩ <;> rw [e] at h1 h3 h4
  · exact ⟨es, h1, h2, fun _ h => (nomatch h), fun _ _ => h4 _ rfl⟩
  · obtain ⟨es', g1, g2, g3, g4⟩ := hf a d' t' (h3 a rfl).1
    exact ⟨es ++ es', by rw [g1, ← List.append_assoc]; exact congrArg (· ++ es') h1, only_append h2 g2,
      fun b hb => ⟨(g3 b hb).1, fun hk => sound_append ((h3 a rfl).2 hk) ((g3 b hb).2 hk)⟩, g4⟩
theorem ite {c : Prop} [Decidable c] {m m' : X ε ((σ × List Access) × τ) α} (h : c → XC k W P m Q E) (h' : ¬ c → XC k W P m' Q E) :
    XC k W P (if c then m else m') Q E := by
  split
  · exact h ‹_›
  · exact h' ‹_›
theorem mapErr {f : ε → ε'} {m : X ε ((σ × List Access) × τ) α} (h : XC k W P m Q E) : XC k W P (m.mapErr f) Q E := fun d t ht => by
  obtain ⟨es, h1, h2, h3, h4⟩ := h d t ht
  unfold X.mapErr
  rcases e : m (d, t) with ⟨e' | a, d', t'⟩ <;> rw [e] at h1 h3 h4
  · exact ⟨es, h1, h2, fun _ h => (nomatch h), fun _ _ => h4 _ rfl⟩
  · exact ⟨es, h1, h2, fun b hb => by injection hb with hb; exact hb ▸ h3 a rfl, fun _ h => nomatch h⟩
/-- First `m`, and then what its result calls for. -/
theorem attempt {m : X ε ((σ × List Access) × τ) α} {f : Except ε α → X ε' ((σ × List Access) × τ) β} {Q' : β → τ → Prop} (h : XC k W P m Q E)
    (h1 : ∀ a, XC k W (Q a) (f (.ok a)) Q' E) (h2 : ∀ e, XC False W E (f (.error e)) (fun _ _ => False) E) :
    XC k W P (m.attempt >>= f) Q' E := fun d t ht => by
  obtain ⟨es, g1, g2, g3, g4⟩ := h d t ht
  rw [X.bind_run]
  unfold X.attempt
  rcases e : m (d, t) with ⟨(e' | e' | _) | a, d', t'⟩ <;> rw [e] at g1 g3 g4
  · obtain ⟨es', i1, i2, i3, i4⟩ := h2 e' d' t' (g4 _ rfl)
    exact ⟨es ++ es', by rw [i1, ← List.append_assoc]; exact congrArg (· ++ es') g1, only_append g2 i2, fun b hb => (i3 b hb).1.elim, i4⟩
  · exact ⟨es, g1, g2, fun _ h => (nomatch h), fun _ _ => g4 _ rfl⟩
  · exact ⟨es, g1, g2, fun _ h => (nomatch h), fun _ _ => g4 _ rfl⟩
  · obtain ⟨es', i1, i2, i3, i4⟩ := h1 a d' t' (g3 a rfl).1
    exact ⟨es ++ es', by rw [i1, ← List.append_assoc]; exact congrArg (· ++ es') g1, only_append g2 i2,
      fun b hb => ⟨(i3 b hb).1, fun hk => sound_append ((g3 a rfl).2 hk) ((i3 b hb).2 hk)⟩, i4⟩
/-- The result of an attempt that does not matter. -/
theorem attempt_any {m : X ε ((σ × List Access) × τ) α} {f : Except ε α → X ε' ((σ × List Access) × τ) β} {I : τ → Prop} {Q' : β → τ → Prop}
    (h : XC k W P m (fun _ => I) I) (hf : ∀ r, XC False W I (f r) Q' I) : XC False W P (m.attempt >>= f) Q' I := fun d t ht => by
  obtain ⟨es, g1, g2, g3, g4⟩ := h d t ht
  rw [X.bind_run]
  unfold X.attempt
  rcases e : m (d, t) with ⟨(e' | e' | _) | a, d', t'⟩ <;> rw [e] at g1 g3 g4
  · obtain ⟨es', i1, i2, i3, i4⟩ := hf (.error e') d' t' (g4 _ rfl)
    exact ⟨es ++ es', by rw [i1, ← List.append_assoc]; exact congrArg (· ++ es') g1, only_append g2 i2, fun b hb => ⟨(i3 b hb).1, False.elim⟩, i4⟩
  · exact ⟨es, g1, g2, fun _ h => (nomatch h), fun _ _ => g4 _ rfl⟩
  · exact ⟨es, g1, g2, fun _ h => (nomatch h), fun _ _ => g4 _ rfl⟩
  · obtain ⟨es', i1, i2, i3, i4⟩ := hf (.ok a) d' t' (g3 a rfl).1
    exact ⟨es ++ es', by rw [i1, ← List.append_assoc]; exact congrArg (· ++ es') g1, only_append g2 i2, fun b hb => ⟨(i3 b hb).1, False.elim⟩, i4⟩
theorem onFst {m : X ε (σ × List Access) α} (h : X0 W V m) : XC k W P (m.onFst : X ε ((σ × List Access) × τ) α) (fun a t => P t ∧ V a) P :=
  fun d t ht => by
  obtain ⟨es, h1, h2, h3⟩ := h d
  exact ⟨es, h1, h2, fun a ha => ⟨⟨ht, (h3 a ha).1⟩, fun _ => (h3 a ha).2⟩, fun _ _ => ht⟩

end XC

namespace X0

theorem ofM {m : M (σ × List Access) α} (h : T0 W V m) : X0 W V (X.ofM m) := fun d => by
  obtain ⟨es, h1, h2, h3, _, h5⟩ := h d trivial
  unfold X.ofM
  rcases e : m d with ⟨e' | a, d'⟩ <;> rw [e] at h1 h3 h5
  · exact ⟨es, h1, h2, fun _ h => nomatch h⟩
  · exact ⟨es, h1, h2, fun b hb => by injection hb with hb; exact hb ▸ ⟨h5 a rfl, sound_of h3 rfl⟩⟩
theorem still {m : X ε (σ × List Access) α} (h : ∀ d, (m d).2 = d ∧ ∀ a, (m d).1 = .ok a → V a) : X0 W V m := fun d =>
  ⟨[], by rw [(h d).1, List.append_nil], only_nil, fun a ha => ⟨(h d).2 a ha, sound_nil⟩⟩
theorem pure {a : α} (h : V a) : X0 W V (Pure.pure a : X ε (σ × List Access) α) := still fun _ => ⟨rfl, fun b hb => by injection hb with hb; exact hb ▸ h⟩
theorem throw {e : ε} : X0 W V (X.throw e : X ε (σ × List Access) α) := still fun _ => ⟨rfl, fun _ h => nomatch h⟩
theorem fail {e : Fail ε} : X0 W V (X.ofExcept (.error e) : X ε (σ × List Access) α) := still fun _ => ⟨rfl, fun _ h => nomatch h⟩
theorem ofCipher {r : Except Err α} : X0 W (fun _ => True) (Tls.ofCipher r : X ε (σ × List Access) α) := by
  cases r with
  | ok a => exact pure trivial
  | error e => exact fail
theorem unwrapKey {r : Option α} : X0 W (fun _ => True) (Tls.unwrapKey r : X ε (σ × List Access) α) := by
  cases r with
  | some a => exact pure trivial
  | none => exact fail
theorem bind {m : X ε (σ × List Access) β} {f : β → X ε (σ × List Access) α} {V' : β → Prop} (hm : X0 W V' m) (hf : ∀ b, V' b → X0 W V (f b)) :
    X0 W V (m >>= f) := fun d => by
  obtain ⟨es, h1, h2, h3⟩ := hm d
  rw [X.bind_run]
  rcases e : m d with ⟨e' | a, d'⟩ <;> rw [e] at h1 h3
  · exact ⟨es, h1, h2, fun _ h => nomatch h⟩
  · obtain ⟨es', g1, g2, g3⟩ := hf a (h3 a rfl).1 d'
    exact ⟨es ++ es', by rw [g1, ← List.append_assoc]; exact congrArg (· ++ es') h1, only_append h2 g2,
      fun b hb => ⟨(g3 b hb).1, sound_append (h3 a rfl).2 (g3 b hb).2⟩⟩
theorem ite {c : Prop} [Decidable c] {m m' : X ε (σ × List Access) α} (h : X0 W V m) (h' : X0 W V m') : X0 W V (if c then m else m') := by
  split <;> assumption
theorem mapErr {f : ε → ε'} {m : X ε (σ × List Access) α} (h : X0 W V m) : X0 W V (m.mapErr f) := fun d => by
  obtain ⟨es, h1, h2, h3⟩ := h d
  unfold X.mapErr
  rcases e : m d with ⟨e' | a, d'⟩ <;> rw [e] at h1 h3
  · exact ⟨es, h1, h2, fun _ h => nomatch h⟩
  · exact ⟨es, h1, h2, fun b hb => by injection hb with hb; exact hb ▸ h3 a rfl⟩
theorem internal {m : M (σ × List Access) α} (h : T0 W V m) : X0 W V (Tls.internal m) := (ofM h).mapErr

end X0

/-! ## An invariant, and what is known of the result -/

/-- `I` is kept, the result satisfies `V`, and no access fails if there is a result. -/
abbrev XV (W : Access → Prop) (I : τ → Prop) (V : α → Prop) (m : X ε ((σ × List Access) × τ) α) : Prop := XC True W I m (fun a t => I t ∧ V a) I

namespace XV
variable {I : τ → Prop}

theorem pure {a : α} (h : V a) : XV W I V (Pure.pure a : X ε ((σ × List Access) × τ) α) := XC.pure fun _ ht => ⟨ht, h⟩
theorem throw {e : ε} : XV W I V (X.throw e : X ε ((σ × List Access) × τ) α) := XC.throw fun _ ht => ht
theorem ofExcept {r : Except (Fail ε) α} : XV W I (fun _ => True) (X.ofExcept r : X ε ((σ × List Access) × τ) α) :=
  XC.ofExcept (fun _ _ _ ht => ⟨ht, trivial⟩) fun _ ht => ht
theorem fail {e : Fail ε} : XV W I V (X.ofExcept (.error e) : X ε ((σ × List Access) × τ) α) := XC.ofExcept (fun _ h => nomatch h) fun _ ht => ht
theorem ofCipher {r : Except Err α} : XV W I (fun _ => True) (Tls.ofCipher r : X ε ((σ × List Access) × τ) α) := by
  cases r with
  | ok a => exact pure trivial
  | error e => exact fail
theorem unwrapKey {r : Option α} : XV W I (fun _ => True) (Tls.unwrapKey r : X ε ((σ × List Access) × τ) α) := by
  cases r with
  | some a => exact pure trivial
  | none => exact fail
theorem bind {m : X ε ((σ × List Access) × τ) β} {f : β → X ε ((σ × List Access) × τ) α} {V' : β → Prop} (hm : XV W I V' m)
    (hf : ∀ b, V' b → XV W I V (f b)) : XV W I V (m >>= f) :=
  XC.bind hm fun b => fun d t ht => hf b ht.2 d t ht.1
theorem ite {c : Prop} [Decidable c] {m m' : X ε ((σ × List Access) × τ) α} (h : XV W I V m) (h' : XV W I V m') : XV W I V (if c then m else m') :=
  XC.ite (fun _ => h) fun _ => h'
theorem mapErr {f : ε → ε'} {m : X ε ((σ × List Access) × τ) α} (h : XV W I V m) : XV W I V (m.mapErr f) := XC.mapErr h
theorem onFst {m : X ε (σ × List Access) α} (h : X0 W V m) : XV W I V (m.onFst : X ε ((σ × List Access) × τ) α) := XC.onFst h
end XV

end

/-! ## The calls of the TLS client -/

section
variable {σ ε α : Type} {x : Crypto} {W : Access → Prop} {b : Bus σ} {sn : Sn}

/-- With a client of the socket. -/
abbrev XK (W : Access → Prop) (sn : Sn) (V : α → Prop) (m : X ε ((σ × List Access) × Client x) α) : Prop := XV W (fun c => c.sn = sn) V m

theorem XK.getC : XK W sn (fun c => c.sn = sn) (Tls.getC : X ε ((σ × List Access) × Client x) _) :=
  XC.still fun _ t ht => ⟨rfl, fun c hc => by injection hc with hc; exact hc ▸ ⟨ht, ht⟩, fun _ _ => ht⟩
theorem XK.modC {f : Client x → Client x} (h : ∀ c, (f c).sn = c.sn) : XK W sn (fun _ => True) (Tls.modC f : X ε ((σ × List Access) × Client x) _) :=
  XC.still fun _ t ht => ⟨rfl, fun _ _ => ⟨(h t).trans ht, trivial⟩, fun _ _ => (h t).trans ht⟩
theorem XK.onBus {V : α → Prop} {m : M (σ × List Access) α} (h : T0 W V m) : XK W sn V (Tls.onBus m : X _ ((σ × List Access) × Client x) α) :=
  .onFst (.internal h)
theorem XK.onHl {V : α → Prop} {m : M (σ × List Access) α} (h : T0 W V m) : XK W sn V (Tls.onHl m : X _ ((σ × List Access) × Client x) α) :=
  .onFst (X0.ofM h).mapErr
theorem XK.onRx {m : X ε ((σ × List Access) × Buffer) α} (h : XV W (fun _ => True) (fun _ => True) m) :
    XK W sn (fun _ => True) (Tls.onRx m : X ε ((σ × List Access) × Client x) α) := fun d t ht => by
  obtain ⟨es, h1, h2, h3, _⟩ := h d t.rx trivial
  exact ⟨es, h1, h2, fun a ha => ⟨⟨ht, trivial⟩, (h3 a ha).2⟩, fun _ _ => ht⟩

variable (hb : Device b) (hW : ∀ a, OfSocket sn a → W a)
include hb hW

theorem t0_writerWriteAll (r : Ptrs) (hr : r.sn = sn) (bs : Bytes) : T0 W (fun r' => r'.sn = sn) (writerWriteAll (traceBus b) r bs) := by
  unfold writerWriteAll
  refine .ite (fun _ => .throw fun _ => by nofun) fun _ => .bind (Q := fun _ => True) ?_ fun _ _ => .pure hr
  subst hr; exact closed_setSnTxBuf (closed_trace hb hW) _ _
theorem t0_tcpReaderReadExact (r : Ptrs) (hr : r.sn = sn) (n : Nat) : T0 W (fun x => x.2.sn = sn) (tcpReaderReadExact (traceBus b) r n) := by
  unfold tcpReaderReadExact
  refine .ite (fun _ => .throw fun _ => by nofun) fun _ => .bind (Q := fun _ => True) ?_ fun _ _ => .pure hr
  subst hr; exact closed_snRxBuf (closed_trace hb hW) _ _
theorem t0_tcpDisconnect (dbg : Bool) : T0 W (fun _ => True) (tcpDisconnect dbg (traceBus b) sn) := by
  have h := closed_trace (W := W) hb hW
  unfold tcpDisconnect
  exact .bind (closed_debugAssert h _ _ (closed_notUdpInitMacraw h)) fun _ _ => closed_setSnCr h _

theorem x0_writeChunks (n : Nat) : ∀ g (r : Ptrs) data, r.sn = sn → X0 W (fun y => y.2.sn = sn) (writeChunks (traceBus b) n g r data) := by
  induction n with
  | zero => intro g r data hr; exact .pure hr
  | succ n ih => intro g r data hr; exact X0.ofCipher.bind fun _ _ => (X0.ofM (t0_writerWriteAll hb hW _ hr _)).bind fun _ h => ih _ _ _ h

theorem x0_sendEncryptedRecord (kn) (ct : ContentType) (data : Bytes) :
    X0 W (fun _ => True) (sendEncryptedRecord (traceBus b) sn kn ct data) := by
  unfold sendEncryptedRecord
  exact .ite .fail ((X0.ofM (Thm.t0_socketWriter hb hW)).bind fun _ h => (X0.ofM (t0_writerWriteAll hb hW _ h _)).bind fun _ h =>
    X0.unwrapKey.bind fun _ _ => (x0_writeChunks hb hW _ _ _ _ h).bind fun _ h => X0.ofCipher.bind fun _ _ =>
    (X0.ofM (t0_writerWriteAll hb hW _ h _)).bind fun _ h => (X0.ofM (t0_writerWriteAll hb hW _ h _)).bind fun _ h =>
    X0.ofM (Thm.t0_writerSend hb hW _ h))

theorem x0_checkTag (ct g rd) : X0 W (fun _ => True) (checkTag (traceBus b) sn ct g rd) :=
  have h := closed_trace (W := W) hb hW
  (X0.internal (closed_snRxBuf h _ _)).bind fun _ _ => (X0.internal (closed_setSnRxRd h _)).bind fun _ _ =>
    (X0.internal (closed_setSnRxRd h _)).bind fun _ _ => (X0.internal (closed_setSnCr h _)).bind fun _ _ => .ite (.pure trivial) .throw

theorem xk_sendRecord (ct : ContentType) (data : Bytes) :
    XK W sn (fun _ => True) (sendRecord (traceBus b) ct data : X _ ((σ × List Access) × Client x) _) :=
  XK.getC.bind fun _ hc => by subst hc; exact .onFst (x0_sendEncryptedRecord hb hW _ _ _)

theorem xk_trySendAlert (l d) : XK W sn (fun _ => True) (trySendAlert (traceBus b) l d : X _ ((σ × List Access) × Client x) _) :=
  XK.getC.bind fun _ hc => .ite (xk_sendRecord hb hW _ _).mapErr (by
    subst hc
    exact (XK.onBus (Thm.t0_socketWriter hb hW)).bind fun _ h => (XK.onHl (t0_writerWriteAll hb hW _ h _)).bind fun _ h =>
      XK.onBus (Thm.t0_writerSend hb hW _ h))

theorem xk_failFatal {k : Prop} {Q : α → Client x → Prop} (d secs) :
    XC k W (fun c => c.sn = sn) (failFatal (traceBus b) d secs : X _ ((σ × List Access) × Client x) α) Q (fun c => c.sn = sn) := by
  refine XC.never ?_
  have h : XC False W (fun c => c.sn = sn) (sendAlert (traceBus b) .fatal d secs : X TErr ((σ × List Access) × Client x) _)
      (fun _ c => c.sn = sn) (fun c => c.sn = sn) := by
    refine XC.attempt_any ((xk_trySendAlert hb hW .fatal d).conseq (fun _ h => h) (fun _ _ h => h.1) fun _ h => h) fun r => ?_
    refine XC.loose (XC.conseq (XV.bind (V := fun _ => True) (XK.modC (by intro _; rfl)) fun _ _ => ?_) (fun _ h => h) (fun _ _ h => h.1) fun _ h => h)
    · cases r <;> exact XK.modC (by intro _; rfl)
  exact XC.bind h fun _ => .throw fun _ h => h

/-- Anything may hold of the client after success; after an alert it is still a client of the socket. -/
theorem xc_orFatal {P : Client x → Prop} {Q : α → Client x → Prop} (secs) {m : X AlertDescription ((σ × List Access) × Client x) α}
    (h : XC True W P m Q (fun c => c.sn = sn)) : XC True W P (orFatal (traceBus b) secs m) Q (fun c => c.sn = sn) :=
  XC.attempt h (fun _ => .pure fun _ h => h) fun e => xk_failFatal hb hW e secs

theorem xk_orFatal {V : α → Prop} (secs) {m : X AlertDescription ((σ × List Access) × Client x) α} (h : XK W sn V m) :
    XK W sn V (orFatal (traceBus b) secs m) := xc_orFatal hb hW secs h

end

section
variable {σ ε α : Type} {x : Crypto} {W : Access → Prop} {b : Bus σ} {sn : Sn}

theorem xv_popTail : XV (σ := σ) W (fun _ => True) (fun _ => True) (popTailRx : X ε ((σ × List Access) × Buffer) _) :=
  XC.still fun d t _ => by
    unfold popTailRx
    split <;> exact ⟨rfl, fun _ _ => ⟨trivial, trivial⟩, fun _ _ => trivial⟩
theorem xv_extend (dbg src) : XV (σ := σ) W (fun _ => True) (fun _ => True) (extendRx dbg src : X _ ((σ × List Access) × Buffer) _) :=
  XC.still fun d t _ => by
    simp only [extendRx, X.bind_run, X.get, X.ofExcept]
    cases t.extendFromSlice dbg src <;> exact ⟨rfl, fun _ _ => ⟨trivial, trivial⟩, fun _ _ => trivial⟩

theorem xk_popHandshake : XK (σ := σ) W sn (fun _ => True) (popHandshake : X _ ((σ × List Access) × Client x) _) := by
  refine XK.getC.bind fun _ _ => XV.ofExcept.bind fun r _ => ?_
  cases r with
  | none => exact .pure trivial
  | some m => exact (XK.modC (by intro _; rfl)).bind fun _ _ => .pure trivial

theorem xk_onHandshake (fuel secs hash h r) : XK (σ := σ) W sn (fun _ => True) (onHandshake fuel secs hash h r : X _ ((σ × List Access) × Client x) _) := by
  unfold onHandshake
  split
  any_goals exact .throw
  · exact XK.getC.bind fun _ _ => .ite .throw (XV.ofExcept.bind fun _ _ => XV.unwrapKey.bind fun _ _ => XK.modC (by intro _; rfl))
  · exact XK.getC.bind fun _ _ => .ite .throw (.pure trivial)
  · exact XK.getC.bind fun _ _ => .ite .throw (XV.ofExcept.bind fun _ _ => XK.modC (by intro _; rfl))
  · exact XK.getC.bind fun _ _ => .ite .throw (.ite .throw (XV.ofExcept.bind fun _ _ => XV.ofExcept.bind fun _ _ => XK.modC (by intro _; rfl)))
  · refine XK.getC.bind fun _ _ => .ite .throw (.ite .throw (XV.ofExcept.bind fun _ _ => ?_))
    dsimp only
    split
    · exact .pure trivial
    · exact XK.modC (by intro _; rfl)
    · exact .throw

theorem xk_recvHandshake (secs) (n : Nat) : XK (σ := σ) W sn (fun _ => True) (recvHandshake secs n : X _ ((σ × List Access) × Client x) _) := by
  induction n with
  | zero => exact .fail
  | succ n ih =>
    refine xk_popHandshake.bind fun m _ => ?_
    cases m with
    | none => exact .pure trivial
    | some m => exact XK.getC.bind fun _ _ => (xk_onHandshake _ _ _ _ _).bind fun _ _ => (XK.modC (by intro _; rfl)).bind fun _ _ => ih

theorem xk_checkTimeout (dbg secs) : XK (σ := σ) W sn (fun _ => True) (checkTimeout dbg secs : X _ ((σ × List Access) × Client x) _) := by
  refine XK.getC.bind fun _ _ => XV.ofCipher.bind fun e _ => ?_
  cases e with
  | none => exact .pure trivial
  | some e => exact .ite ((XK.modC (by intro c; split <;> rfl)).bind fun _ _ => .throw) (.pure trivial)

theorem xk_countAppData (dbg h ct) : XK (σ := σ) W sn (fun _ => True) (countAppData dbg h ct : X _ ((σ × List Access) × Client x) _) :=
  .ite (XK.getC.bind fun _ _ => XV.ofCipher.bind fun _ _ => XK.modC (by intro _; rfl)) (.pure trivial)
theorem xk_countRead (o) : XK (σ := σ) W sn (fun _ => True) (countRead o : X _ ((σ × List Access) × Client x) _) :=
  .ite (XK.getC.bind fun _ _ => XV.ofCipher.bind fun _ _ => XK.modC (by intro _; rfl)) (.pure trivial)

variable (hb : Device b) (hW : ∀ a, OfSocket sn a → W a)
include hb hW

theorem xk_recvHeader (dbg : Bool) : XK W sn (fun _ => True) (recvHeader dbg (traceBus b) : X _ ((σ × List Access) × Client x) _) :=
  XK.getC.bind fun _ hc => by
    subst hc
    exact (XK.onHl (Thm.t0_tcpReader hb hW dbg)).bind fun _ h => (XK.onHl (t0_tcpReaderReadExact hb hW _ h _)).bind fun _ h =>
      XV.ofExcept.bind fun _ _ => .ite .throw (.ite (.pure trivial) ((XK.onBus (Thm.t0_tcpReaderDone hb hW _ h)).bind fun _ _ => .pure trivial))

theorem xk_recvBodyLoop (dbg : Bool) (n : Nat) : ∀ (r : Ptrs) m, r.sn = sn →
    XK W sn (fun r => r.sn = sn) (recvBodyLoop dbg (traceBus b) n r m : X _ ((σ × List Access) × Client x) _) := by
  induction n with
  | zero => intro r m _; exact .fail
  | succ n ih =>
    intro r m hr
    exact .ite (.pure hr) ((XK.onHl (t0_tcpReaderReadExact hb hW _ hr _)).bind fun _ h => (XK.onRx (xv_extend _ _)).bind fun _ _ => ih _ _ h)

theorem xk_recvUnencryptedBody (dbg : Bool) (h) :
    XK W sn (fun _ => True) (recvUnencryptedBody dbg (traceBus b) h : X _ ((σ × List Access) × Client x) _) :=
  XK.getC.bind fun _ hc => by
    subst hc
    exact (XK.onHl (Thm.t0_tcpReader hb hW dbg)).bind fun _ h => (xk_recvBodyLoop hb hW _ _ _ _ h).bind fun _ h =>
      XK.onBus (Thm.t0_tcpReaderDone hb hW _ h)

theorem xv_decryptLoop (dbg : Bool) (n : Nat) : ∀ g rd m, XV W (fun _ => True) (fun _ => True) (decryptLoop dbg (traceBus b) sn n g rd m) := by
  have hc := closed_trace (W := W) hb hW
  induction n with
  | zero => intro g rd m; exact .fail
  | succ n ih =>
    intro g rd m
    refine (XV.onFst (.internal (closed_snRxBuf hc _ _))).bind fun _ _ => XV.ofCipher.bind fun _ _ => (xv_extend _ _).bind fun _ _ =>
      .ite (XV.bind (V' := fun _ => True) ?_ fun _ _ => .pure trivial) (ih _ _ _)
    exact xv_popTail.bind fun b _ => by cases b <;> exact XV.ofExcept

theorem xv_decryptRecord (dbg : Bool) (key nonce h) :
    XV W (fun _ => True) (fun _ => True) (decryptRecordInplace dbg (traceBus b) sn key nonce h) :=
  have hc := closed_trace (W := W) hb hW
  (XV.onFst (.internal (closed_snRxRsr hc))).bind fun _ _ => .ite .throw ((XV.onFst (.internal (closed_snRxRd hc))).bind fun _ _ =>
    .ite .throw ((xv_decryptLoop hb hW _ _ _ _ _).bind fun _ _ => .onFst (x0_checkTag hb hW _ _ _)))

theorem xk_recvEncryptedBody (dbg : Bool) (secs h) :
    XK W sn (fun _ => True) (recvEncryptedBody dbg (traceBus b) secs h : X _ ((σ × List Access) × Client x) _) := by
  refine XK.getC.bind fun c hc => ?_
  split
  · exact xk_failFatal hb hW _ _
  · subst hc
    refine (xk_orFatal hb hW _ (XK.onRx (xv_decryptRecord hb hW _ _ _ _))).bind fun ct _ => ?_
    cases ct
    · exact xk_failFatal hb hW _ _
    · exact .pure trivial

theorem xk_recvBody (dbg : Bool) (secs h o) :
    XK W sn (fun _ => True) (recvBody dbg (traceBus b) secs h o : X _ ((σ × List Access) × Client x) _) :=
  .ite (xk_recvEncryptedBody hb hW _ _ _) ((xk_orFatal hb hW _ (xk_recvUnencryptedBody hb hW _ _)).bind fun _ _ => .pure trivial)

theorem xk_failAlert {V : α → Prop} (dbg : Bool) (h) : XK W sn V (failAlert dbg (traceBus b) h : X _ ((σ × List Access) × Client x) α) := by
  unfold failAlert
  refine XV.bind (XK.modC (by intro _; rfl)) fun _ _ => .ite (XV.bind (XK.modC (by intro _; rfl)) fun _ _ => XK.getC.bind fun _ hc => ?_)
    ((XK.onRx xv_popTail).bind fun b _ => ?_)
  · subst hc
    exact XC.never (XC.attempt_any ((XK.onBus (t0_tcpDisconnect hb hW _)).conseq (fun _ h => h) (fun _ _ h => h.1) fun _ h => h) fun _ => .throw fun _ h => h)
  cases b with
  | none => exact (XK.modC (by intro _; rfl)).bind fun _ _ => .throw
  | some b =>
    dsimp only
    split
    · exact .throw
    · refine (XK.onRx xv_popTail).bind fun b _ => (XK.modC (by intro _; rfl)).bind fun _ _ => ?_
      cases b <;> exact .throw

theorem xk_recvContent (fuel secs h ct) :
    XK W sn (fun _ => True) (recvContent fuel (traceBus b) secs h ct : X _ ((σ × List Access) × Client x) _) := by
  unfold recvContent
  split
  · refine (xk_orFatal hb hW (V := fun _ => True) _ (.ite .throw ((XK.onRx xv_popTail).bind fun b _ => ?_))).bind fun _ _ => .pure trivial
    cases b
    · exact .throw
    · exact .ite .throw (.pure trivial)
  · exact (xk_orFatal hb hW _ (xk_recvHandshake _ _)).bind fun _ _ => .pure trivial
  · exact XK.getC.bind fun _ _ => .ite (.pure trivial) (xk_failFatal hb hW _ _)

theorem xk_recvRecord (dbg fuel secs h o ct f) :
    XK W sn (fun _ => True) (recvRecord dbg fuel (traceBus b) secs h o ct f : X _ ((σ × List Access) × Client x) _) :=
  .ite (xk_failFatal hb hW _ _) (.ite (xk_failAlert hb hW _ _) (XC.attempt (xk_recvContent hb hW _ _ _ _)
    (fun _ => XC.conseq ((xk_countRead _).bind fun _ _ => .ofExcept) (fun _ h => h.1) (fun _ _ h => h) fun _ h => h)
    fun _ => XC.loose (XC.conseq ((xk_countRead _).bind fun _ _ => (XV.fail (V := fun _ => False))) (fun _ h => h) (fun _ _ h => h.2) fun _ h => h)))

theorem xk_recv (dbg fuel secs) : XK W sn (fun _ => True) (recv dbg fuel (traceBus b) secs : X _ ((σ × List Access) × Client x) _) := by
  refine (xk_orFatal hb hW _ (xk_recvHeader hb hW _)).bind fun h _ => ?_
  cases h with
  | none => exact .pure trivial
  | some h =>
    refine XK.getC.bind fun _ _ => ?_
    split
    · exact .fail
    · exact (xk_recvBody hb hW _ _ _ _).bind fun _ _ =>
        (xk_countAppData _ _ _).bind fun _ _ =>
        xk_recvRecord hb hW _ _ _ _ _ _ _

theorem xk_afterRecv (dbg secs) : XK W sn (fun _ => True) (afterRecv dbg (traceBus b) secs : X _ ((σ × List Access) × Client x) _) :=
  XK.getC.bind fun _ _ => .ite ((xk_orFatal hb hW (V := fun _ => True) _ (XK.getC.bind fun _ _ => XV.unwrapKey.bind fun _ _ =>
    (xk_sendRecord hb hW _ _).mapErr.bind fun _ _ => XK.modC (by intro _; rfl))).bind fun _ _ => .pure trivial) (xk_checkTimeout _ _)

theorem xk_receiveRecords (dbg fuel secs) :
    XK W sn (fun _ => True) (receiveRecords dbg fuel (traceBus b) secs : X _ ((σ × List Access) × Client x) _) :=
  XK.getC.bind fun _ hc => .ite (xk_checkTimeout _ _) (by
    subst hc
    exact (xk_orFatal hb hW _ (XK.onBus (closed_snRxRsr (closed_trace hb hW)))).bind fun _ _ =>
      .ite ((xk_recv hb hW _ _ _).bind fun e _ => by
        cases e
        · exact xk_afterRecv hb hW _ _
        · exact .pure trivial) (xk_afterRecv hb hW _ _))

/-! ## Connecting -/

theorem xk_tlsTcpConnect (hS : ∀ a, OfCommon 0x18 1 a → W a) (dbg fuel secs) :
    XK W sn (fun _ => True) (tlsTcpConnect dbg fuel (traceBus b) secs : X _ ((σ × List Access) × Client x) _) :=
  XK.getC.bind fun c hc => by
    subst hc
    have h := closed_trace (W := W) hb hW
    refine (XK.onBus (closed_close h)).bind fun _ _ => (XK.onBus (V := fun _ => True) ?_).bind fun _ _ => (XK.onBus (Thm.t0_simr hb)).bind fun _ _ =>
      (XK.onBus (Thm.t0_setSimr hb hS _)).bind fun _ _ => (XK.onBus (Thm.t0_setSnImr hb hW _)).bind fun _ _ =>
      (XK.onBus (V := fun _ => True) ?_).bind fun _ _ => (XK.modC (by intro _; rfl)).bind fun _ _ => .pure trivial
    · unfold Bus.setSnRxbufSize; exact h.write _ _ _ (Or.inl rfl)
    · exact closed_tcpConnect h _ _ _ _

theorem xc_sendClientHello (dbg rng secs) : XC True W (fun c => c.sn = sn)
    (sendClientHello dbg (traceBus b) rng secs : X _ ((σ × List Access) × Client x) _) (fun _ c => c.sn = sn ∧ c.state = .waitServerHello)
    (fun c => c.sn = sn) := by
  have hm : XK (σ := σ) W sn (fun _ => True) (makeHello dbg rng : X _ ((σ × List Access) × Client x) _) :=
    (XK.modC (by intro _; rfl)).bind fun _ _ => XK.getC.bind fun _ _ => XV.ofCipher.bind fun _ _ => (XK.modC (by intro _; rfl)).bind fun _ _ => .pure trivial
  refine XC.bind hm fun _ => XC.bind (XK.getC.conseq (fun _ h => h.1) (fun _ _ h => h) fun _ h => h) fun c => ?_
  by_cases hc : c.sn = sn
  · subst hc
    refine XC.bind ((XK.onBus (Thm.t0_socketWriter hb hW)).conseq (fun _ h => h.1) (fun _ _ h => h) fun _ h => h) fun r => ?_
    by_cases hr : r.sn = c.sn
    · refine XC.bind ((XK.onBus (t0_writerWriteAll hb hW _ hr _)).conseq (fun _ h => h.1) (fun _ _ h => h) fun _ h => h) fun r => ?_
      by_cases hr : r.sn = c.sn
      · refine XC.bind ((XK.onBus (Thm.t0_writerSend hb hW _ hr)).conseq (fun _ h => h.1) (fun _ _ h => h) fun _ h => h) fun _ => ?_
        refine XC.bind (XK.getC.conseq (fun _ h => h.1) (fun _ _ h => h) fun _ h => h) fun _ =>
          XC.bind (XV.ofCipher.conseq (fun _ h => h.1) (fun _ _ h => h) fun _ h => h) fun _ => ?_
        exact XC.still fun _ t ht => ⟨rfl, fun _ _ => ⟨ht.1, rfl⟩, fun _ h => nomatch h⟩
      · exact fun _ _ h => absurd h.2 hr
    · exact fun _ _ h => absurd h.2 hr
  · exact fun _ _ h => absurd h.2 hc

/-- A client that may write the socket interrupt mask register, `R`, if it is about to connect. -/
def May (sn : Sn) (R : Prop) (c : Client x) : Prop := c.sn = sn ∧ (c.state = .reset → R)

variable {R : Prop} (hS : R → ∀ a, OfCommon 0x18 1 a → W a)
include hS

theorem xc_onState (dbg fuel secs) : XC True W (May sn R) (onState dbg fuel (traceBus b) secs : X _ ((σ × List Access) × Client x) _)
    (fun _ c => c.sn = sn) (fun c => c.sn = sn) := by
  refine fun d t ht => (?_ : XC True W (fun c => c.sn = sn) (match t.state with
    | .reset => orFatal (traceBus b) secs (tlsTcpConnect dbg fuel (traceBus b) secs) >>= fun after => pure (.callAfter after)
    | .sendDiscon =>
      orFatal (traceBus b) secs (onBus (tcpDisconnect dbg (traceBus b) t.sn)) >>= fun _ =>
      modC (Client.setStateWithTimeout .waitDiscon secs) >>= fun _ =>
      pure (.callAfter timeoutSecs)
    | _ => receiveRecords dbg fuel (traceBus b) secs) (fun _ c => c.sn = sn) (fun c => c.sn = sn)) d t ht.1
  suffices h : XK W sn (fun _ => True) (match t.state with
    | .reset => orFatal (traceBus b) secs (tlsTcpConnect dbg fuel (traceBus b) secs) >>= fun after => pure (.callAfter after)
    | .sendDiscon =>
      orFatal (traceBus b) secs (onBus (tcpDisconnect dbg (traceBus b) t.sn)) >>= fun _ =>
      modC (Client.setStateWithTimeout .waitDiscon secs) >>= fun _ =>
      pure (.callAfter timeoutSecs)
    | _ => receiveRecords dbg fuel (traceBus b) secs) from h.conseq (fun _ h => h) (fun _ _ h => h.1) fun _ h => h
  split
  · exact (xk_orFatal hb hW _ (xk_tlsTcpConnect hb hW (hS (ht.2 ‹_›)) _ _ _)).bind fun _ _ => .pure trivial
  · have := ht.1
    subst this
    exact (xk_orFatal hb hW _ (XK.onBus (t0_tcpDisconnect hb hW _))).bind fun _ _ => (XK.modC (by intro _; rfl)).bind fun _ _ => .pure trivial
  · exact xk_receiveRecords hb hW _ _ _

theorem xc_onInterrupt (dbg fuel secs ir) : XC True W (May sn R) (onInterrupt dbg fuel (traceBus b) secs ir : X _ ((σ × List Access) × Client x) _)
    (fun _ c => c.sn = sn) (fun c => c.sn = sn) := by
  have h1 {α ε : Type} {f : Client x → Client x} {m : X ε ((σ × List Access) × Client x) α} (hf : ∀ c, (f c).sn = c.sn)
      (hm : XK W sn (fun _ => True) m) : XC True W (May sn R) (modC f >>= fun _ => m) (fun _ c => c.sn = sn) (fun c => c.sn = sn) :=
    (XV.bind (XK.modC hf) fun _ _ => hm).conseq (fun _ h => h.1) (fun _ _ h => h.1) fun _ h => h
  refine XC.bind (R := fun _ => May sn R) (XC.still fun _ t ht => ⟨rfl, fun _ _ => ht, fun _ h => nomatch h⟩) fun c => ?_
  refine .ite (fun _ => .ite (fun _ => h1 (by intro _; rfl) (.pure trivial)) fun _ => .throw fun _ h => h.1) fun _ =>
    .ite (fun _ => h1 (by intro _; rfl) .throw) fun _ => .ite (fun _ => h1 (by intro _; rfl) (.pure trivial)) fun _ => xc_onState hb hW hS _ _ _

/-- After the interrupts were read. -/
def afterIr {x : Crypto} (dbg : Bool) (fuel : Nat) (b : Bus σ) (rng : Rng x) (secs : UInt32) :
    Except AlertDescription SocketInterrupt → X TErr (σ × Client x) TEvent
  | .ok ir => if ir.anyRaised then onInterrupts dbg fuel b rng secs ir else onState dbg fuel b secs
  | .error _ => onState dbg fuel b secs

theorem xc_afterIr (dbg fuel rng secs r) : XC True W (May sn R) (afterIr dbg fuel (traceBus b) rng secs r : X _ ((σ × List Access) × Client x) _)
    (fun _ c => c.sn = sn) (fun c => c.sn = sn) := by
  cases r with
  | error e => exact xc_onState hb hW hS _ _ _
  | ok ir =>
    refine .ite (fun _ => ?_) fun _ => xc_onState hb hW hS _ _ _
    refine fun d t ht => (?_ : XC True W (May sn R) (orFatal (traceBus b) secs (onBus ((traceBus b).setSnIr t.sn ir.raw)) >>= fun _ =>
      if ir.conRaised then
        orFatal (traceBus b) secs (sendClientHello dbg (traceBus b) rng secs) >>= fun _ => onInterrupt dbg fuel (traceBus b) secs ir
      else onInterrupt dbg fuel (traceBus b) secs ir) (fun _ c => c.sn = sn) (fun c => c.sn = sn)) d t ht
    refine XC.bind (R := fun _ => May sn R) (xc_orFatal hb hW _ ?_) fun _ => .ite (fun _ => ?_) fun _ => xc_onInterrupt hb hW hS _ _ _ _
    · rw [ht.1]
      exact (XC.onFst (.internal (Thm.t0_setSnIr hb hW _))).conseq (fun _ h => h) (fun _ _ h => h.1) fun _ h => h.1
    · refine XC.bind (R := fun _ => May sn R) (xc_orFatal hb hW _ ?_) fun _ => xc_onInterrupt hb hW hS _ _ _ _
      exact (xc_sendClientHello hb hW _ _ _).conseq (fun _ h => h.1) (fun _ _ h => ⟨h.1, fun h' => by rw [h.2] at h'; exact nomatch h'⟩) fun _ h => h

/-- The interrupts are read first. -/
theorem process_trace (dbg fuel rng secs) (d : σ × List Access) (c : Client x) (hc : May sn R c) :
    ∃ first es, (process dbg fuel (traceBus b) rng secs (d, c)).2.1.2 = d.2 ++ first :: es ∧ first.write = false ∧ first.block = sn.block ∧
      first.addr = 2 ∧ first.len = 1 ∧ OnlyWrites W es ∧
      (∀ a, (process dbg fuel (traceBus b) rng secs (d, c)).1 = .ok a → NoneFailed es) ∧
      (process dbg fuel (traceBus b) rng secs (d, c)).2.2.sn = sn := by
  have key (r : Except AlertDescription SocketInterrupt) (s : σ) (a : Access) (ha : a.write = false ∧ a.block = sn.block ∧ a.addr = 2 ∧ a.len = 1)
      (e : process dbg fuel (traceBus b) rng secs (d, c) = afterIr dbg fuel (traceBus b) rng secs r ((s, d.2 ++ [a]), c)) :
      ∃ first es, (process dbg fuel (traceBus b) rng secs (d, c)).2.1.2 = d.2 ++ first :: es ∧ first.write = false ∧ first.block = sn.block ∧
      first.addr = 2 ∧ first.len = 1 ∧ OnlyWrites W es ∧
      (∀ a, (process dbg fuel (traceBus b) rng secs (d, c)).1 = .ok a → NoneFailed es) ∧
      (process dbg fuel (traceBus b) rng secs (d, c)).2.2.sn = sn := by
    obtain ⟨es, h1, h2, h3, h4⟩ := xc_afterIr hb hW hS dbg fuel rng secs r (s, d.2 ++ [a]) c hc
    rw [e]
    refine ⟨a, es, by rw [h1, List.append_assoc]; rfl, ha.1, ha.2.1, ha.2.2.1, ha.2.2.2, h2, fun v hv => (h3 v hv).2 trivial, ?_⟩
    rcases hr : (afterIr dbg fuel (traceBus b) rng secs r ((s, d.2 ++ [a]), c)).1 with e' | v
    · exact h4 _ hr
    · exact (h3 v hr).1
  have hsn := hc.1
  subst hsn
  have fin (r : Except AlertDescription SocketInterrupt) (s : σ × List Access)
      (h : ((onBus ((traceBus b).snIr c.sn) : X _ ((σ × List Access) × Client x) _).attempt : X TErr _ _) (d, c) = (.ok r, (s, c))) :
      process dbg fuel (traceBus b) rng secs (d, c) = afterIr dbg fuel (traceBus b) rng secs r (s, c) := by
    show ((onBus ((traceBus b).snIr c.sn) : X _ ((σ × List Access) × Client x) _).attempt >>= _) (d, c) = _
    rw [X.bind_run, h]
    rcases r with _ | _ <;> rfl
  rcases e : b.read 2 c.sn.block 1 d.1 with ⟨e' | v, s⟩
  · obtain ⟨y, rfl⟩ := hb.read 2 c.sn.block 1 d.1 e' (by rw [e])
    refine key (.error .internalError) s ⟨false, c.sn.block, 2, 1, some (.bus y)⟩ ⟨rfl, rfl, rfl, rfl⟩ (fin _ _ ?_)
    have h2 : (traceBus b).snIr c.sn d = (.error (.bus y), (s, d.2 ++ [⟨false, c.sn.block, 2, 1, some (.bus y)⟩])) := by
      unfold Bus.snIr
      rw [M.bind_run, show SnReg.IR.addr = 2 from rfl]
      simp only [traceBus, e, errorOf]
    unfold onBus internal X.attempt X.onFst X.mapErr X.ofM
    simp only [h2]
    rfl
  · refine key (.ok ⟨v[0]⟩) s ⟨false, c.sn.block, 2, 1, none⟩ ⟨rfl, rfl, rfl, rfl⟩ (fin _ _ ?_)
    have h2 : (traceBus b).snIr c.sn d = (.ok ⟨v[0]⟩, (s, d.2 ++ [⟨false, c.sn.block, 2, 1, none⟩])) := by
      unfold Bus.snIr
      rw [M.bind_run, show SnReg.IR.addr = 2 from rfl]
      simp only [traceBus, e, errorOf]
      rfl
    unfold onBus internal X.attempt X.onFst X.mapErr X.ofM
    simp only [h2]

end

/-! ## Application data -/

section
variable {σ ε α : Type} {x : Crypto} {W : Access → Prop} {b : Bus σ} {sn : Sn} (hb : Device b) (hW : ∀ a, OfSocket sn a → W a)
include hb hW

theorem xk_tlsWriter : XK W sn (fun r => r.sn = sn) (tlsWriter (traceBus b) : X _ ((σ × List Access) × Client x) _) := by
  have h := closed_trace (W := W) hb hW
  refine XK.getC.bind fun c hc => .ite ?_ .throw
  subst hc
  exact (XV.onFst (X0.ofM (closed_snTxFsr h)).mapErr).bind fun _ _ => .ite .throw
    ((XV.onFst (X0.ofM (closed_snTxWr h)).mapErr).bind fun _ _ => .pure rfl)

theorem xk_tlsWriteAll (data : Bytes) : XK W sn (fun _ => True) (tlsWriteAll (traceBus b) data : X _ ((σ × List Access) × Client x) _) :=
  XK.getC.bind fun _ _ => .ite (xk_sendRecord hb hW _ _).mapErr .throw

omit hW in
theorem t0_snTxBuf (p n) : T0 W (fun _ => True) ((traceBus b).snTxBuf sn p n) := by
  unfold Bus.snTxBuf
  exact .bind (Thm.t0_read hb _ _ _) fun _ _ => .pure trivial

theorem x0_encryptBlocks (n : Nat) : ∀ g head, X0 W (fun _ => True) (encryptBlocksInplace (traceBus b) sn n g head) := by
  have h := closed_trace (W := W) hb hW
  induction n with
  | zero => intro g head; exact .pure trivial
  | succ n ih =>
    intro g head
    exact (X0.ofM (t0_snTxBuf hb _ _)).bind fun _ _ => X0.ofCipher.bind fun _ _ => (X0.ofM (closed_setSnTxBuf h _ _)).bind fun _ _ => ih _ _

theorem x0_encryptRecord (key nonce head tail ct) : X0 W (fun _ => True) (encryptRecordInplace (traceBus b) sn key nonce head tail ct) := by
  have h := closed_trace (W := W) hb hW
  unfold encryptRecordInplace
  exact (X0.ofM (closed_setSnTxBuf h _ _)).bind fun _ _ => (x0_encryptBlocks hb hW _ _ _).bind fun _ _ =>
    (X0.ofM (t0_snTxBuf hb _ _)).bind fun _ _ => X0.ofCipher.bind fun _ _ => (X0.ofM (closed_setSnTxBuf h _ _)).bind fun _ _ =>
    (X0.ofM (closed_setSnTxBuf h _ _)).bind fun _ _ => (X0.ofM (closed_setSnTxWr h _)).bind fun _ _ => X0.ofM (closed_setSnCr h _)

theorem xk_tlsSend (r : Ptrs) (hr : r.sn = sn) : XK W sn (fun _ => True) (tlsSend (traceBus b) r : X _ ((σ × List Access) × Client x) _) := by
  have h : XV W (fun _ => True) (fun _ => True) (tlsWriterSend (traceBus b) r : X _ ((σ × List Access) × KeySchedule x) _) := by
    subst hr
    unfold tlsWriterSend
    refine XV.bind (V' := fun _ => True) (XC.still fun _ _ _ => ⟨rfl, fun _ _ => ⟨trivial, trivial⟩, fun _ h => nomatch h⟩) fun s _ =>
      XV.unwrapKey.bind fun _ _ => (XV.onFst (x0_encryptRecord hb hW _ _ _ _ _)).bind fun _ _ => XV.ofCipher.bind fun _ _ => ?_
    exact XC.still fun _ _ _ => ⟨rfl, fun _ _ => ⟨trivial, trivial⟩, fun _ h => nomatch h⟩
  intro d t ht
  obtain ⟨es, h1, h2, h3, _⟩ := h d t.ks trivial
  exact ⟨es, h1, h2, fun a ha => ⟨⟨ht, trivial⟩, (h3 a ha).2⟩, fun _ _ => ht⟩

end

end Verif.Tls
