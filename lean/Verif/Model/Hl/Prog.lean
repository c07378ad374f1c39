import Verif.Model.Hl.Udp
/-!
# Programs that use a reader

A client of a reader (`R: Read<E> + Seek`) is a tree of calls: what it does next depends on the
results so far.  The parsers of the DNS, DHCP, SNTP and MQTT crates are such programs.
-/
namespace Verif.Hl

/-- A program using a reader.  Continuations receive the `Result` of the call. -/
inductive RProg (α : Type) where
  | ret (r : Except Err α)
  | read (n : Nat) (k : Except Err Bytes → RProg α)
  | readExact (n : Nat) (k : Except Err Bytes → RProg α)
  | seek (pos : SeekFrom) (k : Except Err Unit → RProg α)
  | rewind (k : RProg α)
  | streamLen (k : UInt16 → RProg α)
  | streamPosition (k : UInt16 → RProg α)
  | remain (k : UInt16 → RProg α)

namespace RProg
variable {α β : Type}

def bind (p : RProg α) (f : α → RProg β) : RProg β :=
  match p with
  | .ret (.ok a) => f a
  | .ret (.error e) => .ret (.error e)
  | .read n k => .read n fun r => (k r).bind f
  | .readExact n k => .readExact n fun r => (k r).bind f
  | .seek pos k => .seek pos fun r => (k r).bind f
  | .rewind k => .rewind (k.bind f)
  | .streamLen k => .streamLen fun r => (k r).bind f
  | .streamPosition k => .streamPosition fun r => (k r).bind f
  | .remain k => .remain fun r => (k r).bind f

instance : Monad RProg where
  pure a := .ret (.ok a)
  bind := RProg.bind

/-- `Err(e)?`. -/
def throw (e : Err) : RProg α := .ret (.error e)
/-- `reader.read(&mut buf)?`. -/
def doRead (n : Nat) : RProg Bytes := .read n .ret
/-- `reader.read_exact(&mut buf)?`. -/
def doReadExact (n : Nat) : RProg Bytes := .readExact n .ret
/-- `reader.read_exact(&mut buf)` without `?`. -/
def tryReadExact (n : Nat) : RProg (Except Err Bytes) := .readExact n fun r => .ret (.ok r)
/-- `reader.seek(pos)?`. -/
def doSeek (pos : SeekFrom) : RProg Unit := .seek pos .ret
/-- `reader.seek(pos)` without `?`. -/
def trySeek (pos : SeekFrom) : RProg (Except Err Unit) := .seek pos fun r => .ret (.ok r)
/-- `reader.rewind()`. -/
def doRewind : RProg Unit := .rewind (.ret (.ok ()))
/-- `reader.stream_len()`. -/
def doStreamLen : RProg UInt16 := .streamLen fun n => .ret (.ok n)
/-- `reader.stream_position()`. -/
def doStreamPosition : RProg UInt16 := .streamPosition fun n => .ret (.ok n)
/-- `reader.remain()`. -/
def doRemain : RProg UInt16 := .remain fun n => .ret (.ok n)

/-- Feed the value of an infallible call to the continuation; an error aborts. -/
def withVal {ρ γ : Type} (m : M ρ γ) (k : γ → M ρ α) : M ρ α := fun s =>
  match m s with
  | (.ok a, s') => k a s'
  | (.error e, s') => (.error e, s')

/-- Run a program on a reader. -/
def run {ρ : Type} (ops : Reader ρ) : RProg α → M ρ α
  | .ret r => fun s => (r, s)
  | .read n k => fun s => run ops (k (ops.read n s).1) (ops.read n s).2
  | .readExact n k => fun s => run ops (k (ops.readExact n s).1) (ops.readExact n s).2
  | .seek pos k => fun s => run ops (k (ops.seek pos s).1) (ops.seek pos s).2
  | .rewind k => fun s => run ops k (ops.rewind s).2
  | .streamLen k => withVal ops.streamLen fun a => run ops (k a)
  | .streamPosition k => withVal ops.streamPosition fun a => run ops (k a)
  | .remain k => withVal ops.remain fun a => run ops (k a)

end RProg

/-- A program using a writer, up to (and not including) `send`. -/
inductive WProg (α : Type) where
  | ret (r : Except Err α)
  | write (buf : Bytes) (k : Except Err UInt16 → WProg α)
  | writeAll (buf : Bytes) (k : Except Err Unit → WProg α)
  | seek (pos : SeekFrom) (k : Except Err Unit → WProg α)
  | rewind (k : WProg α)
  | streamLen (k : UInt16 → WProg α)
  | streamPosition (k : UInt16 → WProg α)
  | remain (k : UInt16 → WProg α)

namespace WProg
variable {α β : Type}

def bind (p : WProg α) (f : α → WProg β) : WProg β :=
  match p with
  | .ret (.ok a) => f a
  | .ret (.error e) => .ret (.error e)
  | .write bs k => .write bs fun r => (k r).bind f
  | .writeAll bs k => .writeAll bs fun r => (k r).bind f
  | .seek pos k => .seek pos fun r => (k r).bind f
  | .rewind k => .rewind (k.bind f)
  | .streamLen k => .streamLen fun r => (k r).bind f
  | .streamPosition k => .streamPosition fun r => (k r).bind f
  | .remain k => .remain fun r => (k r).bind f

instance : Monad WProg where
  pure a := .ret (.ok a)
  bind := WProg.bind

/-- `Err(e)?`. -/
def throw (e : Err) : WProg α := .ret (.error e)
/-- `writer.write(buf)?`. -/
def doWrite (bs : Bytes) : WProg UInt16 := .write bs .ret
/-- `writer.write_all(buf)?`. -/
def doWriteAll (bs : Bytes) : WProg Unit := .writeAll bs .ret
/-- `writer.seek(pos)?`. -/
def doSeek (pos : SeekFrom) : WProg Unit := .seek pos .ret
/-- `writer.rewind()`. -/
def doRewind : WProg Unit := .rewind (.ret (.ok ()))
/-- `writer.stream_len()`. -/
def doStreamLen : WProg UInt16 := .streamLen fun n => .ret (.ok n)
/-- `writer.stream_position()`. -/
def doStreamPosition : WProg UInt16 := .streamPosition fun n => .ret (.ok n)
/-- `writer.remain()`. -/
def doRemain : WProg UInt16 := .remain fun n => .ret (.ok n)

end WProg

/-- Run a program on a writer. -/
def WProg.run {ρ α : Type} (ops : Writer ρ) : WProg α → M ρ α
  | .ret r => fun s => (r, s)
  | .write buf k => fun s => run ops (k (ops.write buf s).1) (ops.write buf s).2
  | .writeAll buf k => fun s => run ops (k (ops.writeAll buf s).1) (ops.writeAll buf s).2
  | .seek pos k => fun s => run ops (k (ops.seek pos s).1) (ops.seek pos s).2
  | .rewind k => fun s => run ops k (ops.rewind s).2
  | .streamLen k => RProg.withVal ops.streamLen fun a => run ops (k a)
  | .streamPosition k => RProg.withVal ops.streamPosition fun a => run ops (k a)
  | .remain k => RProg.withVal ops.remain fun a => run ops (k a)

section
variable {σ α : Type}

/-- Use a UDP reader: the state of the reader and that of the chip are updated; an error ends the use
of the reader (`?` drops it). -/
def onUdpReader (b : Bus σ) (u : UdpReader) (p : RProg α) : M σ (α × UdpReader) := fun s =>
  match p.run (udpReaderOps b) (s, u) with
  | (.ok a, (s', u')) => (.ok (a, u'), s')
  | (.error e, (s', _)) => (.error e, s')

/-- Use a TCP reader. -/
def onTcpReader (b : Bus σ) (r : Ptrs) (p : RProg α) : M σ (α × Ptrs) := fun s =>
  match p.run (tcpReaderOps b) (s, r) with
  | (.ok a, (s', r')) => (.ok (a, r'), s')
  | (.error e, (s', _)) => (.error e, s')

/-- Use a TCP or UDP writer. -/
def onWriter (b : Bus σ) (r : Ptrs) (p : WProg α) : M σ (α × Ptrs) := fun s =>
  match p.run (writerOps b) (s, r) with
  | (.ok a, (s', r')) => (.ok (a, r'), s')
  | (.error e, (s', _)) => (.error e, s')
end

end Verif.Hl
