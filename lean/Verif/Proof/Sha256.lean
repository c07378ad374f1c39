import Verif.Spec.Sha256
import Verif.Thm.TlsAes
/-!
# SHA-256 in a form the kernel evaluates quickly
-/
namespace Verif
open Spec.Sha256 Verif.Tls

namespace Sha

def add (a b : Nat) : Nat := Nat.mod (Nat.add a b) 4294967296
def rotr (n x : Nat) : Nat := Nat.mod (Nat.lor (Nat.shiftRight x n) (Nat.shiftLeft x (Nat.sub 32 n))) 4294967296
def s0 (x : Nat) : Nat := Nat.xor (Nat.xor (rotr 7 x) (rotr 18 x)) (Nat.shiftRight x 3)
def s1 (x : Nat) : Nat := Nat.xor (Nat.xor (rotr 17 x) (rotr 19 x)) (Nat.shiftRight x 10)
def S0 (x : Nat) : Nat := Nat.xor (Nat.xor (rotr 2 x) (rotr 13 x)) (rotr 22 x)
def S1 (x : Nat) : Nat := Nat.xor (Nat.xor (rotr 6 x) (rotr 11 x)) (rotr 25 x)
def ch (x y z : Nat) : Nat := Nat.xor (Nat.land x y) (Nat.land (Nat.sub 4294967295 x) z)
def maj (x y z : Nat) : Nat := Nat.xor (Nat.xor (Nat.land x y) (Nat.land x z)) (Nat.land y z)

def sched (α : Type) : Nat → List Nat → (List Nat → α) → α
  | 0, w, k => k w
  | n + 1, w, k =>
    match w with
    | _ :: b :: _ :: _ :: _ :: _ :: g :: _ :: _ :: _ :: _ :: _ :: _ :: _ :: o :: p :: _ =>
      force (Nat.mod (Nat.add (Nat.add (Nat.add (s1 b) g) (s0 o)) p) 4294967296) fun v => sched α n (v :: w) k
    | _ => k (schedule (n + 1) w)

theorem sched_eq (α : Type) : ∀ (n : Nat) (w : List Nat) (k : List Nat → α), sched α n w k = k (schedule n w)
  | 0, _, _ => rfl
  | n + 1, w, k => by
    unfold sched
    split
    · rw [force_eq, sched_eq α n]; rfl
    · rfl

def loop (α : Type) : List (Nat × Nat) → Nat → Nat → Nat → Nat → Nat → Nat → Nat → Nat → (Vars → α) → α
  | [], a, b, c, d, e, f, g, h, k => k ⟨a, b, c, d, e, f, g, h⟩
  | kw :: rest, a, b, c, d, e, f, g, h, k =>
    force (Nat.add (Nat.add (Nat.add (Nat.add h (S1 e)) (ch e f g)) kw.1) kw.2) fun t1 =>
    force (Nat.mod (Nat.add t1 (Nat.add (S0 a) (maj a b c))) 4294967296) fun a' =>
    force (Nat.mod (Nat.add d t1) 4294967296) fun e' => loop α rest a' a b c e' e f g k

theorem loop_eq (α : Type) : ∀ (l : List (Nat × Nat)) (a b c d e f g h : Nat) (k : Vars → α),
    loop α l a b c d e f g h k = k (l.foldl round ⟨a, b, c, d, e, f, g, h⟩)
  | [], _, _, _, _, _, _, _, _, _ => rfl
  | _ :: rest, _, _, _, _, _, _, _, _, k => by
    unfold loop
    rw [force_eq, force_eq, force_eq, loop_eq α rest]
    rfl

/-- One block; a hash value has eight words. -/
def block (α : Type) (H : List Nat) (b : Bytes) (k : List Nat → α) : α :=
  match H with
  | [h0, h1, h2, h3, h4, h5, h6, h7] =>
    sched α 48 (words b).reverse fun w =>
    loop α (K.zip w.reverse) h0 h1 h2 h3 h4 h5 h6 h7 fun v =>
    force (add h0 v.a) fun h0 => force (add h1 v.b) fun h1 => force (add h2 v.c) fun h2 => force (add h3 v.d) fun h3 =>
    force (add h4 v.e) fun h4 => force (add h5 v.f) fun h5 => force (add h6 v.g) fun h6 => force (add h7 v.h) fun h7 =>
    k [h0, h1, h2, h3, h4, h5, h6, h7]
  | _ => k (compress H b)

theorem block_eq (α : Type) (H : List Nat) (b : Bytes) (k : List Nat → α) : block α H b k = k (compress H b) := by
  unfold block
  split
  · simp only [force_eq, sched_eq, loop_eq]; rfl
  · rfl

def blocks (α : Type) (p : Bytes) : List Nat → List Nat → (List Nat → α) → α
  | [], H, k => k H
  | i :: rest, H, k => block α H ((p.drop (64 * i)).take 64) fun H => blocks α p rest H k

theorem blocks_eq (α : Type) (p : Bytes) : ∀ (l : List Nat) (H : List Nat) (k : List Nat → α),
    blocks α p l H k = k (l.foldl (fun H i => compress H ((p.drop (64 * i)).take 64)) H)
  | [], _, _ => rfl
  | _ :: rest, _, _ => by unfold blocks; rw [block_eq, blocks_eq α p rest]; rfl

/-- SHA-256. -/
def sha256F (m : Bytes) : Bytes := blocks Bytes (pad m) (List.range ((pad m).length / 64)) H0 fun H => H.flatMap wordBytes

theorem sha256F_eq (m : Bytes) : sha256 m = sha256F m := by unfold sha256F; rw [blocks_eq]; rfl

end Sha

theorem compress_length (H : List Nat) (b : Bytes) (h : H.length = 8) : (compress H b).length = 8 := by
  simp [compress, h]

theorem sha256_length (m : Bytes) : (sha256 m).length = 32 := by
  have h : ∀ (l : List Nat) (p : Bytes) (H : List Nat), H.length = 8 →
      (l.foldl (fun H i => compress H ((p.drop (64 * i)).take 64)) H).length = 8 := by
    intro l p
    induction l with
    | nil => intro H h; exact h
    | cons i l ih => intro H h; exact ih _ (compress_length _ _ h)
  unfold sha256
  have h8 := h (List.range ((pad m).length / 64)) (pad m) H0 rfl
  have hf : ∀ l : List Nat, (l.flatMap wordBytes).length = 4 * l.length := by
    intro l; induction l with
    | nil => rfl
    | cons a l ih => rw [List.flatMap_cons, List.length_append, ih, List.length_cons]; show 4 + _ = _; omega
  rw [hf]
  show 4 * List.length _ = 32
  rw [h8]

theorem hmac_length (k m : Bytes) : (hmac k m).length = 32 := sha256_length _

theorem T_length (prk info : Bytes) (i : Nat) : (T prk info (i + 1)).length = 32 := hmac_length _ _

theorem expand_length (prk info : Bytes) (n : Nat) : (expand prk info n).length = n := by
  unfold expand
  have h : ∀ l : List Nat, ((l.map fun i => T prk info (i + 1)).flatten).length = 32 * l.length := by
    intro l; induction l with
    | nil => rfl
    | cons a l ih => rw [List.map_cons, List.flatten_cons, List.length_append, ih, T_length, List.length_cons]; omega
  rw [List.length_take, h, List.length_range]
  omega

namespace Sha
def hmacF (k text : Bytes) : Bytes :=
  sha256F ((k ++ List.replicate (64 - k.length) 0).map (· ^^^ 0x5C) ++
    sha256F ((k ++ List.replicate (64 - k.length) 0).map (· ^^^ 0x36) ++ text))

theorem hmacF_eq (k text : Bytes) (h : k.length ≤ 64) : hmac k text = hmacF k text := by
  unfold hmac hmacF blockKey
  rw [if_neg (by omega)]
  simp only [sha256F_eq]
end Sha

end Verif
