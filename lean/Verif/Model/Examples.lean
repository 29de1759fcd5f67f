import Verif.Model.Factory
import Verif.Model.Text

/-!
# The example programs `examples/dis_sender.py` and `examples/dis_receiver.py`

What travels between them and which attributes are shown. The conversion of the position for display
is in `Verif/Geo/Examples.lean`. Sockets, printing and waiting are not modelled: a datagram is the
bytes passed to `sendto`, the network delivers some sequence of datagrams.
-/

namespace Dis

/-- What one call of `recv` is about to print, /repo/examples/dis_receiver.py:32-54: for an entity its
number and the arguments of `ecef2llarpy` (lines 34-40, 42), otherwise the class and the number of
bytes. -/
inductive Received where
  /-- /repo/examples/dis_receiver.py:33-52 -/
  | entity (entityNumber : Int) (x y z psi theta phi : F64)
  /-- /repo/examples/dis_receiver.py:54 -/
  | other (pduTypeName : PduClass) (bytes : Nat)
  deriving DecidableEq

/-- `recv`, /repo/examples/dis_receiver.py:24-54, when the next datagram is `datagram`.
`udpSocket.recv(1024)` returns at most 1024 bytes of it and drops the rest (as on Linux). If the
factory returned `None`, `pdu.pduType` raises `AttributeError` (line 32). The attributes read in lines
34-39 exist in an `EntityStatePdu`; an object of another class with type number 1 is taken not to have
them. -/
def recv (datagram : Bytes) : Except PyErr Received :=
  let data := datagram.take 1024
  match createPdu data with
  | .error e => .error e
  | .ok none => .error .attributeError
  | .ok (some pdu) =>
    if pdu.toPdu.pduType = 1 then
      match pdu with
      | .EntityStatePdu pdu => .ok (.entity pdu.entityID.entityNumber
          pdu.entityLocation.x pdu.entityLocation.y pdu.entityLocation.z
          pdu.entityOrientation.psi pdu.entityOrientation.theta pdu.entityOrientation.phi)
      | _ => .error .attributeError
    else .ok (.other pdu.cls data.length)

/-- `while True: recv()`, /repo/examples/dis_receiver.py:56-59, on the datagrams that arrive: what is
reported, and the exception that ends the program, if any. That the conversion of a position can
raise too (line 42) is left out. -/
def receiver : List Bytes → List Received × Option PyErr
  | [] => ([], none)
  | datagram :: rest =>
    match recv datagram with
    | .error e => ([], some e)
    | .ok r => (r :: (receiver rest).1, (receiver rest).2)

/-- The message of `send`, /repo/examples/dis_sender.py:24-45, for the six numbers `llarpy2ecef`
returned; `'Igor3d'` in UTF-8. -/
def senderPdu (location : F64 × F64 × F64 × F64 × F64 × F64) : Except PyErr EntityStatePdu :=
  let pdu := EntityStatePdu.init
  match pdu.marking.setString [73, 103, 111, 114, 51, 100] with
  | .error e => .error e
  | .ok marking => .ok { pdu with
      entityID := ⟨⟨17, 23⟩, 42⟩
      marking := marking
      entityLocation := ⟨location.1, location.2.1, location.2.2.1⟩
      entityOrientation := ⟨location.2.2.2.1, location.2.2.2.2.1, location.2.2.2.2.2⟩ }

end Dis
