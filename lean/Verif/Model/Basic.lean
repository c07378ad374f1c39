/-!
# Common vocabulary of the model

Rust `Result<T, E>` with `&mut self` becomes a state transformer which keeps the state
when it fails, exactly as `?` does in Rust.
-/
namespace Verif

abbrev Byte := UInt8
abbrev Bytes := List UInt8

instance {ε α : Type} [DecidableEq ε] [DecidableEq α] : DecidableEq (Except ε α)
  | .ok a, .ok b => if h : a = b then .isTrue (by rw [h]) else .isFalse (by simpa using h)
  | .error a, .error b => if h : a = b then .isTrue (by rw [h]) else .isFalse (by simpa using h)
  | .ok _, .error _ => .isFalse nofun
  | .error _, .ok _ => .isFalse nofun

/-- Errors.  Models `Error<E>` of `hl/src/lib.rs:136-155`
(`OutOfMemory`, `UnexpectedEof`, `WouldBlock`, `Other(E)`).  `bus e` is `Other(e)`; the bus
error type `E` is simplified to `Nat`.  `panic` stands for a Rust panic (failed `unwrap`,
`assert!`, slice index out of range, arithmetic overflow in a debug build).  `hang` is not a Rust
value: it marks a loop that used up the number of iterations given to the model. -/
inductive Err where
  | bus (e : Nat)
  | unexpectedEof
  | outOfMemory
  | wouldBlock
  | panic
  | hang
  deriving DecidableEq, Repr, Inhabited

/-- A fallible computation over a mutable state.  The state survives an error. -/
def M (σ α : Type) : Type := σ → Except Err α × σ

namespace M

variable {σ α β : Type}

def pure (a : α) : M σ α := fun s => (.ok a, s)

def bind (m : M σ α) (f : α → M σ β) : M σ β := fun s =>
  match m s with
  | (.ok a, s') => f a s'
  | (.error e, s') => (.error e, s')

instance : Monad (M σ) where
  pure := M.pure
  bind := M.bind

/-- `Err(e)` / `return Err(e)`. -/
def throw (e : Err) : M σ α := fun s => (.error e, s)

/-- Read the state. -/
def get : M σ σ := fun s => (.ok s, s)

/-- Replace the state. -/
def set (s : σ) : M σ Unit := fun _ => (.ok (), s)

/-- Update the state. -/
def modify (f : σ → σ) : M σ Unit := fun s => (.ok (), f s)

/-- Run `m` and keep its `Result` as a value (`let result = f();` without `?`). -/
def attempt (m : M σ α) : M σ (Except Err α) := fun s => (.ok (m s).1, (m s).2)

/-- Return a `Result` value. -/
def ofExcept (r : Except Err α) : M σ α := fun s => (r, s)

/-- Run `m` on a component of the state. -/
def zoom {τ : Type} (getc : τ → σ) (setc : σ → τ → τ) (m : M σ α) : M τ α := fun t =>
  let r := m (getc t)
  (r.1, setc r.2 t)

@[simp] theorem pure_run (a : α) (s : σ) : (Pure.pure a : M σ α) s = (.ok a, s) := rfl

theorem bind_run (m : M σ α) (f : α → M σ β) (s : σ) :
    (m >>= f) s = match m s with
      | (.ok a, s') => f a s'
      | (.error e, s') => (.error e, s') := rfl

theorem bind_ok {m : M σ α} {f : α → M σ β} {s s' : σ} {a : α} (h : m s = (.ok a, s')) :
    (m >>= f) s = f a s' := by rw [bind_run, h]

theorem bind_error {m : M σ α} {f : α → M σ β} {s s' : σ} {e : Err}
    (h : m s = (.error e, s')) : (m >>= f) s = (.error e, s') := by rw [bind_run, h]

@[simp] theorem throw_run (e : Err) (s : σ) : (throw e : M σ α) s = (.error e, s) := rfl
@[simp] theorem attempt_run (m : M σ α) (s : σ) : attempt m s = (.ok (m s).1, (m s).2) := rfl
@[simp] theorem ofExcept_run (r : Except Err α) (s : σ) : (ofExcept r : M σ α) s = (r, s) := rfl
@[simp] theorem get_run (s : σ) : (get : M σ σ) s = (.ok s, s) := rfl
@[simp] theorem set_run (s t : σ) : (set t : M σ Unit) s = (.ok (), t) := rfl
@[simp] theorem modify_run (f : σ → σ) (s : σ) : modify f s = (.ok (), f s) := rfl

instance : LawfulMonad (M σ) := LawfulMonad.mk'
  (id_map := by
    intro α x; funext s
    show M.bind x (fun a => M.pure a) s = x s
    unfold M.bind M.pure; rcases h : x s with ⟨_ | _, _⟩ <;> rfl)
  (pure_bind := by intros; rfl)
  (bind_assoc := by
    intro α β γ x f g; funext s
    show M.bind (M.bind x f) g s = M.bind x (fun a => M.bind (f a) g) s
    unfold M.bind; rcases h : x s with ⟨_ | _, _⟩ <;> rfl)

end M

/-- Big-endian 16-bit word: `u16::from_be_bytes([hi, lo])`. -/
def be16 (hi lo : UInt8) : UInt16 := (hi.toUInt16 <<< 8) ||| lo.toUInt16

/-- `u16::to_be_bytes`. -/
def toBe16 (x : UInt16) : Bytes := [(x >>> 8).toUInt8, x.toUInt8]

/-- Big-endian 32-bit word: `u32::from_be_bytes`. -/
def be32 (a b c d : UInt8) : UInt32 :=
  (a.toUInt32 <<< 24) ||| (b.toUInt32 <<< 16) ||| (c.toUInt32 <<< 8) ||| d.toUInt32

/-- `u32::to_be_bytes`. -/
def toBe32 (x : UInt32) : Bytes :=
  [(x >>> 24).toUInt8, (x >>> 16).toUInt8, (x >>> 8).toUInt8, x.toUInt8]

/-- Big-endian 64-bit word: `u64::from_be_bytes`, `to_be_bytes`. -/
def toBe64 (x : UInt64) : Bytes :=
  [(x >>> 56).toUInt8, (x >>> 48).toUInt8, (x >>> 40).toUInt8, (x >>> 32).toUInt8,
   (x >>> 24).toUInt8, (x >>> 16).toUInt8, (x >>> 8).toUInt8, x.toUInt8]

/-- `Ipv4Addr` (`net/src/lib.rs` re-export of `core::net::Ipv4Addr`): four octets. -/
structure Ipv4 where
  a : UInt8
  b : UInt8
  c : UInt8
  d : UInt8
  deriving DecidableEq, Repr, Inhabited

def Ipv4.octets (i : Ipv4) : Bytes := [i.a, i.b, i.c, i.d]
def Ipv4.unspecified : Ipv4 := ⟨0, 0, 0, 0⟩
def Ipv4.broadcast : Ipv4 := ⟨255, 255, 255, 255⟩

/-- `Eui48Addr` (`ll/src/net.rs`): six octets. -/
structure Eui48 where
  a : UInt8
  b : UInt8
  c : UInt8
  d : UInt8
  e : UInt8
  f : UInt8
  deriving DecidableEq, Repr, Inhabited

def Eui48.octets (x : Eui48) : Bytes := [x.a, x.b, x.c, x.d, x.e, x.f]

/-- `SocketAddrV4` (`core::net`). -/
structure SockAddr where
  ip : Ipv4
  port : UInt16
  deriving DecidableEq, Repr, Inhabited

end Verif
