import Verif.Model.Tls.Record
/-!
# The laws of `X`
-/
namespace Verif.Tls
open Verif Hl

namespace X
variable {ε ε' σ τ α β γ : Type}

theorem pure_run (a : α) (s : σ) : (Pure.pure a : X ε σ α) s = (.ok a, s) := rfl

theorem bind_run (m : X ε σ α) (f : α → X ε σ β) (s : σ) :
    (m >>= f) s = match m s with
      | (.ok a, s') => f a s'
      | (.error e, s') => (.error e, s') := rfl

theorem bind_ok {m : X ε σ α} {f : α → X ε σ β} {s s' : σ} {a : α} (h : m s = (.ok a, s')) : (m >>= f) s = f a s' := by
  rw [bind_run, h]

theorem bind_error {m : X ε σ α} {f : α → X ε σ β} {s s' : σ} {e : Fail ε} (h : m s = (.error e, s')) :
    (m >>= f) s = (.error e, s') := by rw [bind_run, h]

instance : LawfulMonad (X ε σ) := LawfulMonad.mk'
  (id_map := by
    intro α x; funext s
    show X.bind x (fun a => X.pure a) s = x s
    unfold X.bind X.pure; rcases h : x s with ⟨_ | _, _⟩ <;> rfl)
  (pure_bind := by intros; rfl)
  (bind_assoc := by
    intro α β γ x f g; funext s
    show X.bind (X.bind x f) g s = X.bind x (fun a => X.bind (f a) g) s
    unfold X.bind; rcases h : x s with ⟨_ | _, _⟩ <;> rfl)

theorem ofM_bind (m : M σ α) (f : α → M σ β) : X.ofM (m >>= f) = X.ofM m >>= fun a => X.ofM (f a) := by
  funext s
  rw [bind_run]
  unfold X.ofM
  rw [M.bind_run]
  rcases m s with ⟨e | a, s'⟩ <;> rfl

theorem ofM_pure (a : α) : X.ofM (Pure.pure a : M σ α) = Pure.pure a := rfl

theorem ofM_ok {m : M σ α} {s s' : σ} {a : α} (h : m s = (.ok a, s')) : X.ofM m s = (.ok a, s') := by
  unfold X.ofM; rw [h]

theorem ofM_error {m : M σ α} {s s' : σ} {e : Err} (h : m s = (.error e, s')) : X.ofM m s = (.error (ofErr e), s') := by
  unfold X.ofM; rw [h]

theorem onFst_run {m : X ε σ α} {s s' : σ} {r : Except (Fail ε) α} (h : m s = (r, s')) (t : τ) :
    (m.onFst : X ε (σ × τ) α) (s, t) = (r, (s', t)) := by
  unfold X.onFst; dsimp only; rw [h]

theorem mapErr_ok {f : ε → ε'} {m : X ε σ α} {s s' : σ} {a : α} (h : m s = (.ok a, s')) : (m.mapErr f) s = (.ok a, s') := by
  unfold X.mapErr; rw [h]

theorem mapErr_error {f : ε → ε'} {m : X ε σ α} {s s' : σ} {e : Fail ε} (h : m s = (.error e, s')) :
    (m.mapErr f) s = (.error (mapFail f e), s') := by
  unfold X.mapErr; rw [h]

theorem mapErr_bind (f : ε → ε') (m : X ε σ α) (k : α → X ε σ β) : (m >>= k).mapErr f = m.mapErr f >>= fun a => (k a).mapErr f := by
  funext s
  rw [bind_run]
  unfold X.mapErr
  rw [bind_run]
  rcases m s with ⟨e | a, s'⟩ <;> rfl

theorem onFst_bind (m : X ε σ α) (k : α → X ε σ β) :
    ((m >>= k).onFst : X ε (σ × τ) β) = m.onFst >>= fun a => (k a).onFst := by
  funext s
  rw [bind_run]
  unfold X.onFst
  rw [bind_run]
  rcases m s.1 with ⟨e | a, s'⟩ <;> rfl

theorem attempt_ok {m : X ε σ α} {s s' : σ} {a : α} (h : m s = (.ok a, s')) :
    (m.attempt : X ε' σ _) s = (.ok (.ok a), s') := by
  unfold X.attempt; rw [h]

theorem attempt_err {m : X ε σ α} {s s' : σ} {e : ε} (h : m s = (.error (.err e), s')) :
    (m.attempt : X ε' σ _) s = (.ok (.error e), s') := by
  unfold X.attempt; rw [h]

end X

theorem ofCipher_ok {ε σ α : Type} (a : α) : (ofCipher (.ok a) : X ε σ α) = pure a := rfl

/-- Write several strings. -/
def writePieces {σ : Type} (b : Bus σ) (r : Ptrs) : List Bytes → M σ Ptrs
  | [] => pure r
  | p :: ps => writerWriteAll b r p >>= fun r => writePieces b r ps

theorem writePieces_append {σ : Type} (b : Bus σ) (ps qs : List Bytes) : ∀ r : Ptrs,
    writePieces b r (ps ++ qs) = writePieces b r ps >>= fun r => writePieces b r qs := by
  induction ps with
  | nil => intro r; rfl
  | cons p ps ih =>
    intro r
    simp only [List.cons_append, writePieces, bind_assoc, ih]

/-- Write several strings and send them. -/
def sendPieces {σ : Type} (b : Bus σ) (sn : Sn) (ps : List Bytes) : M σ Unit :=
  socketWriter b sn >>= fun r => writePieces b r ps >>= writerSend b

end Verif.Tls
