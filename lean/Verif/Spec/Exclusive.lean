import Verif.Spec.Conc
/-
The critical section of dmxUpdateLoop.
-/
namespace Verif.Spec
open Packet Code Artnet Conc

/-- The goroutine is between `c.nodeLock.Lock()` and `c.nodeLock.Unlock()` of dmxUpdateLoop (controller.go:263-284): it goes
through the routing table and the buffers. -/
def inSection : Thread → Bool
  | .duTick _ _ _ => true
  | .duSend _ _ _ _ _ => true
  | _ => false

/-- The goroutine takes the lock of the controller in its next step and changes the tables in it: gcNode, updateNode,
SendDMXToAddress. -/
def takesLock : Thread → Bool
  | .plGc => true
  | .plGot _ => true
  | .caller _ _ => true
  | _ => false

end Verif.Spec
