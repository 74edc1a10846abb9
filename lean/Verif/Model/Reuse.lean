import Verif.Model.Whole

/-!
# Another knock from the same address and port

The client has been interrupted, and another one is started that gets the same local port, while letmeind's session with the first is still there. With UDP letmeind cannot tell them
apart.
-/

namespace Letmein

/-- A new client takes the place of the old one. Over UDP: `/repo/letmein/src/client.rs:45-61` it binds any free local port; `/repo/letmein-proto/src/socket.rs:84-121,274-300` datagrams belong to the session of the
address and port that they come from, as long as there is one. What is on its way stays there. -/
def Whole.newClient (mac : MacFn) (u : UserId) (r : ResourceId) (key : Key) (W : Whole) : Whole := { W with client := knockSequence mac u r key }

end Letmein
