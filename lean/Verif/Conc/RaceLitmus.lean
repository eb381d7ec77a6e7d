import Verif.Conc.RaceCheck

/-!
Small programs with a data race after the memory model of Go, one or more per rule of `HB`: the rules do not order more than they should.
Goroutines, locations, channels, mutexes and wait groups are numbers.
-/

namespace Verif.Conc.Race.Litmus

abbrev P := List (Event Nat Nat Nat)

-- two goroutines that do nothing but access one location
example : Racy (fun _ => 1) ([⟨0, .go 1⟩, ⟨0, .go 2⟩, ⟨1, .write 0⟩, ⟨2, .write 0⟩] : P) := racy_of_races (i := 2) (j := 3) (by decide +kernel)

-- reading is an access as well
example : Racy (fun _ => 1) ([⟨0, .go 1⟩, ⟨0, .go 2⟩, ⟨1, .read 0⟩, ⟨2, .write 0⟩] : P) := racy_of_races (i := 2) (j := 3) (by decide +kernel)

-- an atomic access and a plain one
example : Racy (fun _ => 1) ([⟨0, .go 1⟩, ⟨0, .go 2⟩, ⟨1, .atomic 0⟩, ⟨2, .read 0⟩] : P) := racy_of_races (i := 2) (j := 3) (by decide +kernel)

-- what is done after `go` is not ordered with the new goroutine
example : Racy (fun _ => 1) ([⟨0, .go 1⟩, ⟨0, .write 0⟩, ⟨1, .read 0⟩] : P) := racy_of_races (i := 1) (j := 2) (by decide +kernel)

-- the end of a goroutine is not ordered with anything
example : Racy (fun _ => 1) ([⟨0, .go 1⟩, ⟨1, .write 0⟩, ⟨0, .read 0⟩] : P) := racy_of_races (i := 1) (j := 2) (by decide +kernel)

-- a `go` only starts its own goroutine
example : Racy (fun _ => 1) ([⟨0, .go 1⟩, ⟨0, .go 2⟩, ⟨1, .write 0⟩, ⟨1, .go 3⟩, ⟨2, .read 0⟩] : P) := racy_of_races (i := 2) (j := 4) (by decide +kernel)

-- the message that is received is the one of another goroutine
example : Racy (fun _ => 2) ([⟨0, .go 1⟩, ⟨0, .go 2⟩, ⟨2, .send 7⟩, ⟨1, .write 0⟩, ⟨1, .send 7⟩, ⟨0, .recv 7⟩, ⟨0, .read 0⟩] : P) :=
  racy_of_races (i := 3) (j := 6) (by decide +kernel)

-- the message is received from another channel
example : Racy (fun _ => 1) ([⟨0, .go 1⟩, ⟨1, .send 8⟩, ⟨1, .write 0⟩, ⟨1, .send 7⟩, ⟨0, .recv 8⟩, ⟨0, .read 0⟩] : P) :=
  racy_of_races (i := 2) (j := 5) (by decide +kernel)

-- what is done after sending is not ordered with the receiver
example : Racy (fun _ => 1) ([⟨0, .go 1⟩, ⟨1, .send 7⟩, ⟨1, .write 0⟩, ⟨0, .recv 7⟩, ⟨0, .read 0⟩] : P) :=
  racy_of_races (i := 2) (j := 4) (by decide +kernel)

-- a channel with room for a message does not wait for the receiver of that message
example : Racy (fun _ => 1) ([⟨0, .go 1⟩, ⟨1, .write 0⟩, ⟨1, .recv 7⟩, ⟨0, .send 7⟩, ⟨0, .read 0⟩] : P) :=
  racy_of_races (i := 1) (j := 4) (by decide +kernel)

-- the second message may be sent before the first one is received if there is room for two
example : Racy (fun _ => 2) ([⟨0, .go 1⟩, ⟨0, .send 7⟩, ⟨1, .write 0⟩, ⟨1, .recv 7⟩, ⟨0, .send 7⟩, ⟨0, .read 0⟩] : P) :=
  racy_of_races (i := 2) (j := 5) (by decide +kernel)

-- closing a channel is not ordered with the receipt of a message that was sent before
example : Racy (fun _ => 1) ([⟨0, .go 1⟩, ⟨1, .send 7⟩, ⟨1, .write 0⟩, ⟨1, .close 7⟩, ⟨0, .recv 7⟩, ⟨0, .read 0⟩] : P) :=
  racy_of_races (i := 2) (j := 5) (by decide +kernel)

-- another channel is found closed
example : Racy (fun _ => 1) ([⟨0, .go 1⟩, ⟨1, .close 8⟩, ⟨1, .write 0⟩, ⟨1, .close 7⟩, ⟨0, .closed 8⟩, ⟨0, .read 0⟩] : P) :=
  racy_of_races (i := 2) (j := 5) (by decide +kernel)

-- two mutexes
example : Racy (fun _ => 1) ([⟨0, .go 1⟩, ⟨0, .go 2⟩, ⟨1, .lock 7⟩, ⟨1, .write 0⟩, ⟨1, .unlock 7⟩, ⟨2, .lock 8⟩, ⟨2, .write 0⟩, ⟨2, .unlock 8⟩] : P) :=
  racy_of_races (i := 3) (j := 6) (by decide +kernel)

-- an access after the mutex has been given back
example : Racy (fun _ => 1) ([⟨0, .go 1⟩, ⟨0, .go 2⟩, ⟨1, .lock 7⟩, ⟨1, .unlock 7⟩, ⟨1, .write 0⟩, ⟨2, .lock 7⟩, ⟨2, .write 0⟩, ⟨2, .unlock 7⟩] : P) :=
  racy_of_races (i := 4) (j := 6) (by decide +kernel)

-- an access before the mutex is taken
example : Racy (fun _ => 1) ([⟨0, .go 1⟩, ⟨0, .go 2⟩, ⟨2, .write 0⟩, ⟨1, .lock 7⟩, ⟨1, .write 0⟩, ⟨1, .unlock 7⟩, ⟨2, .lock 7⟩, ⟨2, .unlock 7⟩] : P) :=
  racy_of_races (i := 2) (j := 4) (by decide +kernel)

-- two wait groups
example : Racy (fun _ => 1) ([⟨0, .go 1⟩, ⟨1, .write 0⟩, ⟨1, .done 7⟩, ⟨0, .wait 8⟩, ⟨0, .read 0⟩] : P) :=
  racy_of_races (i := 1) (j := 4) (by decide +kernel)

-- an access after `Done`
example : Racy (fun _ => 1) ([⟨0, .go 1⟩, ⟨1, .done 7⟩, ⟨1, .write 0⟩, ⟨0, .wait 7⟩, ⟨0, .read 0⟩] : P) :=
  racy_of_races (i := 2) (j := 4) (by decide +kernel)

-- those who leave a wait group are not ordered with each other
example : Racy (fun _ => 1) ([⟨0, .go 1⟩, ⟨0, .go 2⟩, ⟨1, .write 0⟩, ⟨1, .done 7⟩, ⟨2, .read 0⟩, ⟨2, .done 7⟩] : P) :=
  racy_of_races (i := 2) (j := 4) (by decide +kernel)

-- atomic operations on another location
example : Racy (fun _ => 1) ([⟨0, .go 1⟩, ⟨0, .go 2⟩, ⟨1, .write 0⟩, ⟨1, .atomic 5⟩, ⟨2, .atomic 6⟩, ⟨2, .read 0⟩] : P) :=
  racy_of_races (i := 2) (j := 5) (by decide +kernel)

end Verif.Conc.Race.Litmus
