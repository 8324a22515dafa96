/-!
# Model of the TCP connection handling of `src/main.cpp`

`WiFiServer` is a queue of pending connections (`hasClient` looks, `available` takes the first one or returns an empty client); a
`WiFiClient` is a reference to a connection, which is closed by `stop()` and when the last reference to it goes away.
-/

namespace Verif.Net

/-- A connection, named by a number. -/
abbrev Conn := Nat

/-- `remoteClient`, the queue of pending connections, the connections that are open (from the device's side and still up). -/
structure Net where
  remote : Option Conn
  pending : List Conn
  open' : List Conn
  deriving DecidableEq, Repr

/-- Nothing connected, nobody waiting. -/
def Net.init : Net := ⟨none, [], []⟩

/-- The connection is closed by the device. -/
def Net.close (n : Net) (c : Conn) : Net := { n with open' := n.open'.filter (· ≠ c) }

/-- `server.hasClient()` -/
def Net.hasClient (n : Net) : Bool := !n.pending.isEmpty

/-- `remoteClient && remoteClient.connected()` -/
def Net.connected (n : Net) : Bool :=
  match n.remote with
  | some c => n.open'.contains c
  | none => false

/-- `server.available()`: takes the first pending connection. -/
def Net.available (n : Net) : Option Conn × Net := (n.pending.head?, { n with pending := n.pending.tail })

/-- The last reference to a client object goes away (or `stop()` is called). -/
def Net.drop (n : Net) : Option Conn → Net
  | some c => n.close c
  | none => n

/-- `main.cpp:402-422` `checkForConnections()`.  Not modelled: logging. -/
def checkForConnections (n : Net) : Net :=
  if n.hasClient then
    if n.connected then
      let (c1, n) := n.available                       -- main.cpp:411 `server.available().remoteIP()`: a temporary
      let n := n.drop c1
      let (c2, n) := n.available                       -- main.cpp:413 `server.available().stop()`
      n.drop c2
    else
      let (c, n) := n.available                        -- main.cpp:417
      let old := n.remote
      let n := { n with remote := c }
      n.drop old
  else n

/-- What happens around the device: a new connection arrives, a connection is closed by the other side or lost, the device checks. -/
inductive Event where
  | arrive (c : Conn)
  | gone (c : Conn)
  | check
  deriving DecidableEq, Repr

/-- One event. -/
def step (n : Net) : Event → Net
  | .arrive c => { n with pending := n.pending ++ [c], open' := c :: n.open' }
  | .gone c => n.close c
  | .check => checkForConnections n

end Verif.Net
