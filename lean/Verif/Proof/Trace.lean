import Verif.Spec.Trace
import Verif.Proof.Panic
import Verif.Proof.Call
import Verif.Proof.ClosedProg
/-!
# A logic for the accesses of a call
-/
namespace Verif.Thm
open Hl
open _root_.Verif.Spec (Device Access errorOf traceBus OfSocket OfCommon OnlyWrites Reported)

/-- Not an error of the bus. -/
def NB {α : Type} (r : Except Err α) : Prop := ∀ x, r ≠ .error (.bus x)

/-- What `m` does to the list of accesses `lg`, from states with `I`, which it keeps. -/
def Tr {τ α : Type} (W : Access → Prop) (lg : τ → List Access) (I : τ → Prop) (Q : α → Prop) (m : M τ α) : Prop :=
  ∀ t, I t → ∃ es, lg (m t).2 = lg t ++ es ∧ OnlyWrites W es ∧ Reported es (m t).1 ∧ I (m t).2 ∧ ∀ a, (m t).1 = .ok a → Q a

section
variable {τ α β : Type} {W : Access → Prop} {lg : τ → List Access} {I : τ → Prop} {Q : α → Prop} {Q' : β → Prop}

theorem only_nil : OnlyWrites W [] := fun _ h => nomatch h
theorem only_append {es es' : List Access} (h : OnlyWrites W es) (h' : OnlyWrites W es') : OnlyWrites W (es ++ es') := fun a ha =>
  (List.mem_append.mp ha).elim (h a) (h' a)
theorem reported_nil {r : Except Err α} (h : NB r) : Reported [] r := .inl ⟨fun _ h => (nomatch h), h⟩
theorem reported_append {es es' : List Access} {r : Except Err α} {r' : Except Err β} (h : Reported es r) (hr : NB r) (h' : Reported es' r') :
    Reported (es ++ es') r' := by
  rcases h with ⟨h1, _⟩ | ⟨_, _, x, _, _, _, h⟩
  · rcases h' with ⟨h2, h3⟩ | ⟨p, l, x, rfl, h4, h5, h6⟩
    · exact .inl ⟨fun a ha => (List.mem_append.mp ha).elim (h1 a) (h2 a), h3⟩
    · exact .inr ⟨es ++ p, l, x, (List.append_assoc _ _ _).symm, fun a ha => (List.mem_append.mp ha).elim (h1 a) (h4 a), h5, h6⟩
  · exact absurd h (hr x)
/-- The result may be changed if errors of the bus stay what they are. -/
theorem reported_map {es : List Access} {r : Except Err α} {r' : Except Err β} (h : Reported es r) (h1 : NB r → NB r')
    (h2 : ∀ x, r = .error (.bus x) → r' = .error (.bus x)) : Reported es r' := by
  rcases h with ⟨h, hn⟩ | ⟨p, l, x, e, h3, h4, h5⟩
  · exact .inl ⟨h, h1 hn⟩
  · exact .inr ⟨p, l, x, e, h3, h4, h2 x h5⟩

theorem Tr.pure {a : α} (h : Q a) : Tr W lg I Q (Pure.pure a : M τ α) := fun t ht =>
  ⟨[], (List.append_nil _).symm, only_nil, reported_nil (fun _ h => nomatch h), ht, fun _ h' => by injection h' with h'; exact h' ▸ h⟩
theorem Tr.throw {e : Err} (h : ∀ x, e ≠ .bus x) : Tr W lg I Q (M.throw e : M τ α) := fun t ht =>
  ⟨[], (List.append_nil _).symm, only_nil, reported_nil (fun x h' => by injection h' with h'; exact h x h'), ht, fun _ h' => nomatch h'⟩
theorem Tr.ofExcept {r : Except Err α} (h : NB r) (hq : ∀ a, r = .ok a → Q a) : Tr W lg I Q (M.ofExcept r : M τ α) := fun t ht =>
  ⟨[], (List.append_nil _).symm, only_nil, reported_nil h, ht, hq⟩
theorem Tr.mono {m : M τ α} {Q1 : α → Prop} (h : Tr W lg I Q1 m) (hq : ∀ a, Q1 a → Q a) : Tr W lg I Q m := fun t ht => by
  obtain ⟨es, h1, h2, h3, h4, h5⟩ := h t ht
  exact ⟨es, h1, h2, h3, h4, fun a ha => hq a (h5 a ha)⟩
theorem Tr.result {m : M τ α} {Q1 : α → Prop} (h : Tr W lg I Q1 m) (hq : ∀ t a, (m t).1 = .ok a → Q a) : Tr W lg I Q m := fun t ht => by
  obtain ⟨es, h1, h2, h3, h4, _⟩ := h t ht
  exact ⟨es, h1, h2, h3, h4, hq t⟩

/-- First `op`, and then what its result calls for, errors included. -/
theorem Tr.step {op : M τ α} {f : Except Err α → M τ β} (h : Tr W lg I Q op) (hb : ∀ x s, f (.error (.bus x)) s = (.error (.bus x), s))
    (hf : ∀ r, NB r → (∀ a, r = .ok a → Q a) → Tr W lg I Q' (f r)) : Tr W lg I Q' (fun t => f (op t).1 (op t).2) := fun t ht => by
  obtain ⟨es, h1, h2, h3, h4, h5⟩ := h t ht
  by_cases hn : NB (op t).1
  · obtain ⟨es', g1, g2, g3, g4, g5⟩ := hf _ hn h5 _ h4
    exact ⟨es ++ es', by rw [g1, h1, List.append_assoc], only_append h2 g2, reported_append h3 hn g3, g4, g5⟩
  · have : ∃ x, (op t).1 = .error (.bus x) := by
      apply Classical.byContradiction; intro hc; exact hn fun x hx => hc ⟨x, hx⟩
    obtain ⟨x, hx⟩ := this
    show ∃ es, lg (f (op t).1 (op t).2).2 = lg t ++ es ∧ OnlyWrites W es ∧ Reported es (f (op t).1 (op t).2).1 ∧ I (f (op t).1 (op t).2).2 ∧
      ∀ a, (f (op t).1 (op t).2).1 = .ok a → Q' a
    rw [hx, hb]
    refine ⟨es, h1, h2, reported_map h3 (fun h => absurd hx (h x)) (fun y hy => ?_), h4, fun _ h => ?_⟩
    · rw [hx] at hy; injection hy with hy; rw [hy]
    · exact nomatch h

theorem Tr.bind {m : M τ α} {f : α → M τ β} (h : Tr W lg I Q m) (hf : ∀ a, Q a → Tr W lg I Q' (f a)) : Tr W lg I Q' (m >>= f) := by
  have := Tr.step (op := m) (Q' := Q') (f := fun r => match r with
    | .ok a => f a
    | .error e => fun t => (.error e, t)) h (fun _ _ => rfl) fun r hr hq => by
      rcases r with e | a
      · exact Tr.throw fun x hx => hr x (by rw [hx])
      · exact hf a (hq a rfl)
  intro t ht
  have := this t ht
  rw [M.bind_run]
  dsimp only at this
  rcases e : m t with ⟨e' | a, t'⟩ <;> rw [e] at this <;> exact this

theorem Tr.ite {c : Prop} [Decidable c] {m m' : M τ α} (h : c → Tr W lg I Q m) (h' : ¬ c → Tr W lg I Q m') : Tr W lg I Q (if c then m else m') := by
  split
  · exact h ‹_›
  · exact h' ‹_›

/-- The same accesses, with another result. -/
theorem Tr.map {m : M τ α} {m' : M τ β} (h : Tr W lg I Q m) (g : Except Err α → Except Err β) (e : ∀ t, m' t = (g (m t).1, (m t).2))
    (h1 : ∀ r, NB r → NB (g r)) (h2 : ∀ x, g (.error (.bus x)) = .error (.bus x)) (h3 : ∀ r, (∀ a, r = .ok a → Q a) → ∀ b, g r = .ok b → Q' b) :
    Tr W lg I Q' m' := fun t ht => by
  obtain ⟨es, g1, g2, g3, g4, g5⟩ := h t ht
  rw [e]
  exact ⟨es, g1, g2, reported_map g3 (h1 _) (fun x hx => by rw [hx]; exact h2 x), g4, h3 _ g5⟩

end

/-! ## The device alone, and the device with a client -/

section
variable {σ C α β : Type} {W : Access → Prop}

/-- On the device alone. -/
abbrev T0 (W : Access → Prop) (Q : α → Prop) (m : M (σ × List Access) α) : Prop := Tr W (·.2) (fun _ => True) Q m
/-- With a client that satisfies `I`. -/
abbrev T1 (W : Access → Prop) (I : C → Prop) (Q : α → Prop) (m : M ((σ × List Access) × C) α) : Prop := Tr W (·.1.2) (fun t => I t.2) Q m

theorem T1.onBus {I : C → Prop} {Q : α → Prop} {m : M (σ × List Access) α} (h : T0 W Q m) :
    T1 W I Q (fun s : (σ × List Access) × C => ((m s.1).1, ((m s.1).2, s.2))) := fun t ht => by
  obtain ⟨es, h1, h2, h3, _, h5⟩ := h t.1 trivial
  exact ⟨es, h1, h2, h3, ht, h5⟩
theorem T1.modC {I : C → Prop} {f : C → C} (h : ∀ c, I c → I (f c)) :
    T1 W I (fun _ => True) (fun s : (σ × List Access) × C => (.ok (), (s.1, f s.2)) : M ((σ × List Access) × C) Unit) := fun _ ht =>
  ⟨[], (List.append_nil _).symm, only_nil, reported_nil (fun _ h => nomatch h), h _ ht, fun _ _ => trivial⟩
theorem T1.getC {I : C → Prop} : T1 W I I (fun s : (σ × List Access) × C => (.ok s.2, s) : M ((σ × List Access) × C) C) := fun t ht =>
  ⟨[], (List.append_nil _).symm, only_nil, reported_nil (fun _ h => nomatch h), ht, fun _ h => by injection h with h; exact h ▸ ht⟩

end

/-! ## Registers and sockets -/

section
variable {σ : Type} {b : Bus σ} {sn : Sn} {W : Access → Prop} (hb : Device b)
include hb

theorem t0_read (a : UInt16) (blk : UInt8) (n : Nat) : T0 W (fun _ => True) ((traceBus b).read a blk n) := fun t _ => by
  refine ⟨[⟨false, blk, a, n, errorOf (b.read a blk n t.1).1⟩], rfl, ?_, ?_, trivial, fun _ _ => trivial⟩
  · intro x hx hw
    rw [List.mem_singleton.mp hx] at hw; exact nomatch hw
  · show Reported _ (b.read a blk n t.1).1
    rcases e : (b.read a blk n t.1).1 with e' | v
    · obtain ⟨x, rfl⟩ := hb.read _ _ _ _ _ e
      exact .inr ⟨[], _, x, rfl, fun _ h => (nomatch h), rfl, rfl⟩
    · exact .inl ⟨fun x hx => by rw [List.mem_singleton.mp hx]; rfl, fun _ h => nomatch h⟩

theorem t0_write (a : UInt16) (blk : UInt8) (bs : Bytes) (h : ∀ e, W ⟨true, blk, a, bs.length, e⟩) :
    T0 W (fun _ => True) ((traceBus b).write a blk bs) := fun t _ => by
  refine ⟨[⟨true, blk, a, bs.length, errorOf (b.write a blk bs t.1).1⟩], rfl, ?_, ?_, trivial, fun _ _ => trivial⟩
  · intro x hx hw
    rw [List.mem_singleton.mp hx]; exact h _
  · show Reported _ (b.write a blk bs t.1).1
    rcases e : (b.write a blk bs t.1).1 with e' | v
    · obtain ⟨x, rfl⟩ := hb.write _ _ _ _ _ e
      exact .inr ⟨[], _, x, rfl, fun _ h => (nomatch h), rfl, rfl⟩
    · exact .inl ⟨fun x hx => by rw [List.mem_singleton.mp hx]; rfl, fun _ h => nomatch h⟩

variable (hW : ∀ a, OfSocket sn a → W a)
include hW

omit hb in
theorem own_write {blk : UInt8} (h : OwnBlock sn blk) (a : UInt16) (n : Nat) (e : Option Err) : W ⟨true, blk, a, n, e⟩ := by
  apply hW
  rcases h with h | h | h <;> rw [h]
  · exact .inl (Sn.block_toNat sn)
  · exact .inr (.inl (Sn.txBlock_toNat sn))
  · exact .inr (.inr (Sn.rxBlock_toNat sn))

/-- Every property of sequences of accesses to the socket. -/
theorem closed_trace : Closed (traceBus b) (OwnBlock sn) (fun m => T0 W (fun _ => True) m) where
  pure _ := .pure trivial
  throw _ he := .throw he
  bind _ _ hm hf := .bind hm fun a _ => hf a
  read a blk n := t0_read hb a blk n
  write a blk bs h := t0_write hb a blk bs (own_write hW h a _)

/-! ## Programs -/

end

/-- A program on a reader that passes errors of the bus on. -/
def Rp {α : Type} : RProg α → Prop
  | .ret r => NB r
  | .read _ k => (∀ x, k (.error (.bus x)) = .ret (.error (.bus x))) ∧ ∀ r, NB r → Rp (k r)
  | .readExact _ k => (∀ x, k (.error (.bus x)) = .ret (.error (.bus x))) ∧ ∀ r, NB r → Rp (k r)
  | .seek _ k => ∀ r, NB r → Rp (k r)
  | .rewind k => Rp k
  | .streamLen k => ∀ n, Rp (k n)
  | .streamPosition k => ∀ n, Rp (k n)
  | .remain k => ∀ n, Rp (k n)

/-- A program on a writer that passes errors of the bus on. -/
def Wp {α : Type} : WProg α → Prop
  | .ret r => NB r
  | .write _ k => (∀ x, k (.error (.bus x)) = .ret (.error (.bus x))) ∧ ∀ r, NB r → Wp (k r)
  | .writeAll _ k => (∀ x, k (.error (.bus x)) = .ret (.error (.bus x))) ∧ ∀ r, NB r → Wp (k r)
  | .seek _ k => ∀ r, NB r → Wp (k r)
  | .rewind k => Wp k
  | .streamLen k => ∀ n, Wp (k n)
  | .streamPosition k => ∀ n, Wp (k n)
  | .remain k => ∀ n, Wp (k n)

section
variable {α β : Type}

theorem Rp.bind {f : α → RProg β} (hf : ∀ a, Rp (f a)) (m : RProg α) : Rp m → Rp (m >>= f) := by
  show Rp m → Rp (RProg.bind m f)
  induction m with
  | ret r =>
    intro h
    rcases r with e | a
    · exact fun x hx => h x (by injection hx with hx; rw [hx])
    · exact hf a
  | read n k ih => exact fun h => ⟨fun x => by show RProg.bind (k _) f = _; rw [h.1 x]; rfl, fun r hr => ih r (h.2 r hr)⟩
  | readExact n k ih => exact fun h => ⟨fun x => by show RProg.bind (k _) f = _; rw [h.1 x]; rfl, fun r hr => ih r (h.2 r hr)⟩
  | seek pos k ih => exact fun h r hr => ih r (h r hr)
  | rewind k ih => exact fun h => ih h
  | streamLen k ih => exact fun h n => ih n (h n)
  | streamPosition k ih => exact fun h n => ih n (h n)
  | remain k ih => exact fun h n => ih n (h n)

theorem Wp.bind {f : α → WProg β} (hf : ∀ a, Wp (f a)) (m : WProg α) : Wp m → Wp (m >>= f) := by
  show Wp m → Wp (WProg.bind m f)
  induction m with
  | ret r =>
    intro h
    rcases r with e | a
    · exact fun x hx => h x (by injection hx with hx; rw [hx])
    · exact hf a
  | write n k ih => exact fun h => ⟨fun x => by show WProg.bind (k _) f = _; rw [h.1 x]; rfl, fun r hr => ih r (h.2 r hr)⟩
  | writeAll n k ih => exact fun h => ⟨fun x => by show WProg.bind (k _) f = _; rw [h.1 x]; rfl, fun r hr => ih r (h.2 r hr)⟩
  | seek pos k ih => exact fun h r hr => ih r (h r hr)
  | rewind k ih => exact fun h => ih h
  | streamLen k ih => exact fun h n => ih n (h n)
  | streamPosition k ih => exact fun h n => ih n (h n)
  | remain k ih => exact fun h n => ih n (h n)

theorem Rp.pure (a : α) : Rp (Pure.pure a : RProg α) := fun _ h => nomatch h
theorem Rp.throw {e : Err} (h : ∀ x, e ≠ .bus x) : Rp (RProg.throw e : RProg α) := fun x hx => h x (by injection hx)
theorem Rp.doRead (n : Nat) : Rp (RProg.doRead n) := ⟨fun _ => rfl, fun _ h => h⟩
theorem Rp.doReadExact (n : Nat) : Rp (RProg.doReadExact n) := ⟨fun _ => rfl, fun _ h => h⟩
theorem Rp.doSeek (p : SeekFrom) : Rp (RProg.doSeek p) := fun _ h => h
theorem Rp.doStreamPosition : Rp RProg.doStreamPosition := fun _ _ h => nomatch h
theorem Rp.doRemain : Rp RProg.doRemain := fun _ _ h => nomatch h
theorem Wp.pure (a : α) : Wp (Pure.pure a : WProg α) := fun _ h => nomatch h
theorem Wp.throw {e : Err} (h : ∀ x, e ≠ .bus x) : Wp (WProg.throw e : WProg α) := fun x hx => h x (by injection hx)
theorem Wp.doWriteAll (bs : Bytes) : Wp (WProg.doWriteAll bs) := ⟨fun _ => rfl, fun _ h => h⟩
theorem Wp.doSeek (p : SeekFrom) : Wp (WProg.doSeek p) := fun _ h => h
theorem Wp.doRewind : Wp WProg.doRewind := fun _ h => nomatch h
theorem Wp.doStreamPosition : Wp WProg.doStreamPosition := fun _ _ h => nomatch h
theorem Wp.doRemain : Wp WProg.doRemain := fun _ _ h => nomatch h
end

theorem Rp.panic {α : Type} : Rp (RProg.throw .panic : RProg α) := .throw fun _ => by nofun
theorem Rp.hang {α : Type} : Rp (RProg.throw .hang : RProg α) := .throw fun _ => by nofun
theorem Rp.eof {α : Type} : Rp (RProg.throw .unexpectedEof : RProg α) := .throw fun _ => by nofun
theorem Wp.panic {α : Type} : Wp (WProg.throw .panic : WProg α) := .throw fun _ => by nofun
theorem Wp.oom {α : Type} : Wp (WProg.throw .outOfMemory : WProg α) := .throw fun _ => by nofun

/-- The tactic for programs: with lemmas about the parts. -/
syntax "prog_tac" "[" term,* "]" : tactic
macro_rules
  | `(tactic| prog_tac [$ts,*]) => `(tactic|
    with_reducible repeat' (first
      $[| exact $ts]*
      | exact Rp.pure _ | exact Rp.doRead _ | exact Rp.doReadExact _ | exact Rp.doSeek _ | exact Rp.doStreamPosition | exact Rp.doRemain
      | exact Wp.pure _ | exact Wp.doWriteAll _ | exact Wp.doSeek _ | exact Wp.doRewind | exact Wp.doStreamPosition | exact Wp.doRemain
      | exact Rp.panic | exact Rp.hang | exact Rp.eof | exact Wp.panic | exact Wp.oom
      | refine Rp.bind (fun _ => ?_) _ ?_
      | refine Wp.bind (fun _ => ?_) _ ?_
      | split
      | dsimp only))

section
variable {σ α : Type} {b : Bus σ} {sn : Sn} {W : Access → Prop}

/-- Operations on a reader or writer of the socket. -/
abbrev T2 (W : Access → Prop) (sn : Sn) (op : M ((σ × List Access) × Ptrs) α) : Prop :=
  Tr W (·.1.2) (fun t => t.2.sn = sn) (fun _ => True) op

/-- An operation of the reader or writer, from the call on the device. -/
theorem T2.of {β : Type} {m : Ptrs → M (σ × List Access) β} {op : M ((σ × List Access) × Ptrs) α} (f : β → α) (g : β → Ptrs)
    (e : ∀ s r, op (s, r) = match m r s with
      | (.ok x, s') => (.ok (f x), (s', g x))
      | (.error e, s') => (.error e, (s', r)))
    (h : ∀ r, r.sn = sn → T0 W (fun x => (g x).sn = sn) (m r)) : T2 W sn op := by
  rintro ⟨s, r⟩ hr
  obtain ⟨es, g1, g2, g3, _, g5⟩ := h r hr s trivial
  rw [e]
  rcases em : m r s with ⟨e' | a, s'⟩ <;> rw [em] at g1 g3 g5
  · exact ⟨es, g1, g2, reported_map g3 (fun h x hx => h x (by injection hx with hx; rw [hx])) (fun x hx => by injection hx with hx; rw [hx]), hr,
      fun _ _ => trivial⟩
  · exact ⟨es, g1, g2, reported_map g3 (fun _ x hx => nomatch hx) (fun x hx => nomatch hx), g5 a rfl, fun _ _ => trivial⟩

/-- An operation that does not use the device. -/
theorem T2.local {f : Ptrs → Except Err α} {g : Ptrs → Ptrs} {op : M ((σ × List Access) × Ptrs) α}
    (e : ∀ s r, op (s, r) = (f r, (s, g r))) (h : ∀ r, (g r).sn = r.sn) (hf : ∀ r, NB (f r)) : T2 W sn op := by
  rintro ⟨s, r⟩ hr
  rw [e]
  exact ⟨[], (List.append_nil _).symm, only_nil, reported_nil (hf r), (h r).trans hr, fun _ _ => trivial⟩

theorem t2_seek {op : M ((σ × List Access) × Ptrs) Unit} (pos : SeekFrom) (e : ∀ s r, op (s, r) = match r.seek pos with
      | .ok r' => (.ok (), (s, r'))
      | .error e => (.error e, (s, r))) : T2 W sn op := by
  refine T2.local (f := fun r => match r.seek pos with
    | .ok _ => .ok ()
    | .error e => .error e) (g := fun r => match r.seek pos with
    | .ok r' => r'
    | .error _ => r) (fun s r => ?_) (fun r => ?_) (fun r => ?_)
  · rw [e]; rcases r.seek pos with _ | _ <;> rfl
  · unfold Ptrs.seek
    rcases pos.newPtr r.ptr r.head r.tail with _ | _ <;> rfl
  · unfold Ptrs.seek
    rcases pos.newPtr r.ptr r.head r.tail with _ | _
    · exact fun x hx => nomatch hx
    · exact fun x hx => nomatch hx

variable (hb : Device b) (hW : ∀ a, OfSocket sn a → W a)
include hb hW

theorem t2_read (n : Nat) : T2 W sn ((tcpReaderOps (traceBus b)).read n) :=
  .of (m := fun r => tcpReaderRead (traceBus b) r n) (fun x => x.2.1) (fun x => x.2.2) (fun s r => by
    simp only [tcpReaderOps]; rcases tcpReaderRead (traceBus b) r n s with ⟨_ | _, _⟩ <;> rfl) fun r hr => by
    unfold tcpReaderRead
    refine .ite (fun _ => .bind (Q := fun _ => True) ?_ fun _ _ => .pure hr) fun _ => .pure hr
    subst hr; exact closed_snRxBuf (closed_trace hb hW) _ _
theorem t2_readExact (n : Nat) : T2 W sn ((tcpReaderOps (traceBus b)).readExact n) :=
  .of (m := fun r => tcpReaderReadExact (traceBus b) r n) (fun x => x.1) (fun x => x.2) (fun s r => by
    simp only [tcpReaderOps]; rcases tcpReaderReadExact (traceBus b) r n s with ⟨_ | _, _⟩ <;> rfl) fun r hr => by
    unfold tcpReaderReadExact
    refine .ite (fun _ => .throw fun _ => by nofun) fun _ => .bind (Q := fun _ => True) ?_ fun _ _ => .pure hr
    subst hr; exact closed_snRxBuf (closed_trace hb hW) _ _
theorem t2_write (bs : Bytes) : T2 W sn ((writerOps (traceBus b)).write bs) :=
  .of (m := fun r => writerWrite (traceBus b) r bs) (fun x => x.1) (fun x => x.2) (fun s r => by
    simp only [writerOps]; rcases writerWrite (traceBus b) r bs s with ⟨_ | _, _⟩ <;> rfl) fun r hr => by
    unfold writerWrite
    refine .ite (fun _ => .bind (Q := fun _ => True) ?_ fun _ _ => .pure hr) fun _ => .pure hr
    subst hr; exact closed_setSnTxBuf (closed_trace hb hW) _ _
theorem t2_writeAll (bs : Bytes) : T2 W sn ((writerOps (traceBus b)).writeAll bs) :=
  .of (m := fun r => writerWriteAll (traceBus b) r bs) (fun _ => ()) (fun x => x) (fun s r => by
    simp only [writerOps]; rcases writerWriteAll (traceBus b) r bs s with ⟨_ | _, _⟩ <;> rfl) fun r hr => by
    unfold writerWriteAll
    refine .ite (fun _ => .throw fun _ => by nofun) fun _ => .bind (Q := fun _ => True) ?_ fun _ _ => .pure hr
    subst hr; exact closed_setSnTxBuf (closed_trace hb hW) _ _

theorem t2_run (prog : RProg α) : Rp prog → T2 W sn (prog.run (tcpReaderOps (traceBus b))) := by
  induction prog with
  | ret r => exact fun h => .ofExcept h fun _ _ => trivial
  | read n k ih =>
    exact fun h => Tr.step (f := fun r => (k r).run _) (t2_read hb hW n) (fun x t => by rw [h.1 x]; rfl) fun r hr _ => ih r (h.2 r hr)
  | readExact n k ih =>
    exact fun h => Tr.step (f := fun r => (k r).run _) (t2_readExact hb hW n) (fun x t => by rw [h.1 x]; rfl) fun r hr _ => ih r (h.2 r hr)
  | seek pos k ih =>
    rintro h ⟨s, r⟩ hr
    have hs : T2 (σ := σ) W sn ((tcpReaderOps (traceBus b)).seek pos) := t2_seek pos fun _ _ => rfl
    obtain ⟨es, h1, h2, h3, h4, _⟩ := hs (s, r) hr
    have hn : NB ((tcpReaderOps (traceBus b)).seek pos (s, r)).1 := by
      show NB (match r.seek pos with
        | .ok r' => (.ok (), (s, r'))
        | .error e => (.error e, (s, r)) : Except Err Unit × (σ × List Access) × Ptrs).1
      unfold Ptrs.seek
      rcases pos.newPtr r.ptr r.head r.tail with _ | _
      · exact fun x hx => nomatch hx
      · exact fun x hx => nomatch hx
    obtain ⟨es', g1, g2, g3, g4, g5⟩ := ih _ (h _ hn) _ h4
    exact ⟨es ++ es', by rw [← List.append_assoc, ← h1]; exact g1, only_append h2 g2, reported_append h3 hn g3, g4, g5⟩
  | rewind k ih => exact fun h t ht => ih h (t.1, t.2.rewind) ht
  | streamLen k ih => exact fun h t ht => ih _ (h _) t ht
  | streamPosition k ih => exact fun h t ht => ih _ (h _) t ht
  | remain k ih => exact fun h t ht => ih _ (h _) t ht

theorem t2_wrun (prog : WProg α) : Wp prog → T2 W sn (prog.run (writerOps (traceBus b))) := by
  induction prog with
  | ret r => exact fun h => .ofExcept h fun _ _ => trivial
  | write n k ih =>
    exact fun h => Tr.step (f := fun r => (k r).run _) (t2_write hb hW n) (fun x t => by rw [h.1 x]; rfl) fun r hr _ => ih r (h.2 r hr)
  | writeAll n k ih =>
    exact fun h => Tr.step (f := fun r => (k r).run _) (t2_writeAll hb hW n) (fun x t => by rw [h.1 x]; rfl) fun r hr _ => ih r (h.2 r hr)
  | seek pos k ih =>
    rintro h ⟨s, r⟩ hr
    have hs : T2 (σ := σ) W sn ((writerOps (traceBus b)).seek pos) := t2_seek pos fun _ _ => rfl
    obtain ⟨es, h1, h2, h3, h4, _⟩ := hs (s, r) hr
    have hn : NB ((writerOps (traceBus b)).seek pos (s, r)).1 := by
      show NB (match r.seek pos with
        | .ok r' => (.ok (), (s, r'))
        | .error e => (.error e, (s, r)) : Except Err Unit × (σ × List Access) × Ptrs).1
      unfold Ptrs.seek
      rcases pos.newPtr r.ptr r.head r.tail with _ | _
      · exact fun x hx => nomatch hx
      · exact fun x hx => nomatch hx
    obtain ⟨es', g1, g2, g3, g4, g5⟩ := ih _ (h _ hn) _ h4
    exact ⟨es ++ es', by rw [← List.append_assoc, ← h1]; exact g1, only_append h2 g2, reported_append h3 hn g3, g4, g5⟩
  | rewind k ih => exact fun h t ht => ih h (t.1, t.2.rewind) ht
  | streamLen k ih => exact fun h t ht => ih _ (h _) t ht
  | streamPosition k ih => exact fun h t ht => ih _ (h _) t ht
  | remain k ih => exact fun h t ht => ih _ (h _) t ht

theorem t0_onTcpReader (r : Ptrs) (hr : r.sn = sn) (prog : RProg α) (hp : Rp prog) :
    T0 W (fun x => x.2.sn = sn) (onTcpReader (traceBus b) r prog) := by
  intro s _
  obtain ⟨es, h1, h2, h3, h4, _⟩ := t2_run hb hW prog hp (s, r) hr
  unfold onTcpReader
  rcases e : prog.run (tcpReaderOps (traceBus b)) (s, r) with ⟨e' | a, s', r'⟩ <;> rw [e] at h1 h3 h4
  · exact ⟨es, h1, h2, reported_map h3 (fun h x hx => h x (by injection hx with hx; rw [hx])) (fun x hx => by injection hx with hx; rw [hx]), trivial,
      fun _ h => nomatch h⟩
  · exact ⟨es, h1, h2, reported_map h3 (fun _ x hx => nomatch hx) (fun x hx => nomatch hx), trivial, fun _ h => by injection h with h; exact h ▸ h4⟩

theorem t0_onWriter (r : Ptrs) (hr : r.sn = sn) (prog : WProg α) (hp : Wp prog) :
    T0 W (fun x => x.2.sn = sn) (onWriter (traceBus b) r prog) := by
  intro s _
  obtain ⟨es, h1, h2, h3, h4, _⟩ := t2_wrun hb hW prog hp (s, r) hr
  unfold onWriter
  rcases e : prog.run (writerOps (traceBus b)) (s, r) with ⟨e' | a, s', r'⟩ <;> rw [e] at h1 h3 h4
  · exact ⟨es, h1, h2, reported_map h3 (fun h x hx => h x (by injection hx with hx; rw [hx])) (fun x hx => by injection hx with hx; rw [hx]), trivial,
      fun _ h => nomatch h⟩
  · exact ⟨es, h1, h2, reported_map h3 (fun _ x hx => nomatch hx) (fun x hx => nomatch hx), trivial, fun _ h => by injection h with h; exact h ▸ h4⟩

theorem t0_onUdpReader (u : UdpReader) (hr : u.inner.sn = sn) (prog : RProg α) (hp : Rp prog) :
    T0 W (fun x => x.2.inner.sn = sn) (onUdpReader (traceBus b) u prog) := by
  intro s _
  obtain ⟨es, h1, h2, h3, h4, _⟩ := t2_run hb hW prog hp (s, u.inner) hr
  unfold onUdpReader
  rw [udpReader_run_any]
  rcases e : prog.run (tcpReaderOps (traceBus b)) (s, u.inner) with ⟨e' | a, s', r'⟩ <;> rw [e] at h1 h3 h4
  · exact ⟨es, h1, h2, reported_map h3 (fun h x hx => h x (by injection hx with hx; rw [hx])) (fun x hx => by injection hx with hx; rw [hx]), trivial,
      fun _ h => nomatch h⟩
  · exact ⟨es, h1, h2, reported_map h3 (fun _ x hx => nomatch hx) (fun x hx => nomatch hx), trivial, fun _ h => by injection h with h; exact h ▸ h4⟩

theorem t0_socketWriter : T0 W (fun r => r.sn = sn) (socketWriter (traceBus b) sn) := by
  unfold socketWriter
  exact .bind (Q := fun _ => True) (closed_snTxPtrs (closed_trace hb hW)) fun _ _ => .pure rfl
theorem t0_tcpReader (dbg : Bool) : T0 W (fun r => r.sn = sn) (tcpReader dbg (traceBus b) sn) := by
  have h := closed_trace (W := W) hb hW
  unfold tcpReader
  refine .bind (closed_debugAssert h _ _ (closed_notUdpInitMacraw h)) fun _ _ => .bind (closed_snRxRsr h) fun _ _ => .ite (fun _ => .throw fun _ => by nofun) fun _ => ?_
  exact .bind (closed_snRxRd h) fun _ _ => .pure rfl
theorem t0_udpReader (dbg : Bool) : T0 W (fun u => u.inner.sn = sn) (udpReader dbg (traceBus b) sn) := by
  have h := closed_trace (W := W) hb hW
  unfold udpReader
  refine .bind (closed_debugAssert h _ _ (closed_srIsUdp h)) fun _ _ => ?_
  refine .bind (closed_snRxRsr h) fun _ _ => .ite (fun _ => .throw fun _ => by nofun) fun _ => ?_
  exact .bind (closed_snRxRd h) fun _ _ => .bind (closed_snRxBuf h _ _) fun _ _ => .pure rfl

end

attribute [irreducible] Rp Wp

end Verif.Thm
