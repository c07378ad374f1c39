import Verif.Model.Spi
import Verif.Spec.Chip
/-!
# The SPI slave as the peer of the driver
-/
namespace Verif.Spec
open Verif.Spi

/-- A bus whose transfers always succeed, connected to the slave, chip select tied low. -/
def slaveBus : SpiBus Slave where
  write bs := fun s => (.ok (), s.send bs)
  read n := fun s => (.ok (s.recv n).1, (s.recv n).2)

/-- The same with a chip select pin: both edges reset the frame state. -/
def slaveDev : SpiDev Slave where
  write bs := fun s => (.ok (), s.send bs)
  read n := fun s => (.ok (s.recv n).1, (s.recv n).2)
  setLow := fun s => (.ok (), { s with phase := .idle })
  setHigh := fun s => (.ok (), { s with phase := .idle })

end Verif.Spec
