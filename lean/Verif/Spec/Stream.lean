import Verif.Spec.World
/-!
# The receive and transmit side of a socket between two calls
-/
namespace Verif.Spec

/-- The receive side is consistent and `p` of the bytes received since the socket was opened have been
consumed: the buffer size divides 2^16, the received size is the distance of the read and write
pointers, and the buffer holds exactly the received bytes from the `p`-th on. -/
structure RxState (c : Chip) (k p : Nat) : Prop where
  size_dvd : 65536 % c.rxSize k = 0
  size_lt : c.rxSize k < 65536
  rsr_le : c.rxRsr k ≤ c.rxSize k
  wr : c.rxWr k = (c.rxRd k + c.rxRsr k) % 65536
  le : p ≤ (c.received k).length
  data : c.unread k = (c.received k).drop p

/-- The transmit side is idle: nothing is waiting between the transmit pointers, and the free size
does not exceed the buffer, whose size divides 2^16. -/
structure TxState (c : Chip) (k : Nat) : Prop where
  size_dvd : 65536 % c.txSize k = 0
  size_lt : c.txSize k < 65536
  idle : c.txRd k = c.txWr k
  fsr_le : c.txFsr k ≤ c.txSize k

/-- The buffer sizes of a socket are among those the chip supports. -/
structure Sizes (c : Chip) (k : Nat) : Prop where
  rx_dvd : 65536 % c.rxSize k = 0
  rx_lt : c.rxSize k < 65536
  tx_dvd : 65536 % c.txSize k = 0
  tx_lt : c.txSize k < 65536

end Verif.Spec
