import Verif.Model.Basic
/-!
# `hl/src/hostname.rs`

A `&str` is represented by its bytes.
-/
namespace Verif.Hl

/-- `is_valid_char`, `hl/src/hostname.rs:41-43` and `:199-201`
(`u8::is_ascii_alphanumeric` is `0-9 | A-Z | a-z`). -/
def isValidChar (byte : UInt8) : Bool :=
  (48 ≤ byte && byte ≤ 57) || (65 ≤ byte && byte ≤ 90) || (97 ≤ byte && byte ≤ 122)
    || byte == 45 || byte == 46

/-- `is_valid_segment`, `hl/src/hostname.rs:49-66`.  The indexing is in range whenever
`start ≤ end ≤ len`, which `newLoop` maintains. -/
def isValidSegment (h : Bytes) (start stop : Nat) : Bool :=
  let segmentLength := stop - start
  if segmentLength == 0 || segmentLength > 63 then false
  else if h[start]? == some 45 then false
  else if h[stop - 1]? == some 45 then false
  else true

/-- The `while` loop of `Hostname::new`, `hl/src/hostname.rs:70-87`, including the final segment
check; `todo` are the bytes from `idx` on. -/
def newLoop (h : Bytes) : (idx segmentStart : Nat) → (todo : Bytes) → Bool
  | idx, segmentStart, [] => isValidSegment h segmentStart idx
  | idx, segmentStart, byte :: rest =>
    if !isValidChar byte then false
    else if byte == 46 then
      if !isValidSegment h segmentStart idx then false
      else newLoop h (idx + 1) (idx + 1) rest
    else newLoop h (idx + 1) segmentStart rest

/-- `Hostname::new`, `hl/src/hostname.rs:37-90`; `some h` is `Some(Hostname { hostname: h })`. -/
def hostnameNew (h : Bytes) : Option Bytes :=
  if h.isEmpty || h.length > 253 then none
  else if newLoop h 0 0 h then some h else none

/-- `str::split('.')`. -/
def splitDot : Bytes → List Bytes
  | [] => [[]]
  | x :: xs =>
    if x == 46 then [] :: splitDot xs
    else match splitDot xs with
      | [] => [[x]] -- unreachable: `splitDot` is never empty
      | l :: ls => (x :: l) :: ls

/-- `TryFrom<&str> for Hostname`, `hl/src/hostname.rs:198-217`; `none` is `Err`. -/
def hostnameTryFrom (h : Bytes) : Option Bytes :=
  if h.isEmpty || h.length > 253 || h.any (fun b => !isValidChar b) ||
      (splitDot h).any (fun l => l.isEmpty || l.length > 63 || l.getLast? == some 45 || l.head? == some 45)
  then none else some h

/-- `Hostname::labels`, `hl/src/hostname.rs:132-134`. -/
def hostnameLabels (h : Bytes) : List Bytes := splitDot h

/-- `Hostname::len`, `hl/src/hostname.rs:148-151`. -/
def hostnameLen (h : Bytes) : UInt8 := UInt8.ofNat h.length

end Verif.Hl
