import Verif.Model.Examples
import Verif.Model.RangeFrames

/-!
# The example programs `examples/dis_sender.py` and `examples/dis_receiver.py` with their conversions

As in `Verif/Model/Examples.lean`, with the conversions of the position and orientation in doubles. Sockets, the text
of the lines printed and waiting are not modelled.
-/

namespace Dis.Dbl

/-- What `send` puts in its message, /repo/examples/dis_sender.py:24-45, for a position and an attitude: lines 32-45 with
the arguments of `llarpy2ecef` left open. -/
def send (L : Numpy) (lat lon alt roll pitch yaw : F64) : Except PyErr EntityStatePdu := do
  let (pos, euler) ← llarpy2ecef L lat lon alt roll pitch yaw
  senderPdu (pos 0, pos 1, pos 2, euler 0, euler 1, euler 2)

/-- The message of the program as it is, /repo/examples/dis_sender.py:24-45: `deg2rad(36.6)`, `deg2rad(-121.9)`,
1, 0, 0, 0. -/
def sender (L : Numpy) : Except PyErr EntityStatePdu :=
  send L (deg2rad 0x40424ccccccccccd) (deg2rad 0xc05e79999999999a) (num 1) (num 0) (num 0) (num 0)

/-- The labelled numbers, /repo/examples/dis_receiver.py:46-51; everything but the altitude in degrees. -/
structure Shown where
  latitude : F64
  longitude : F64
  altitude : F64
  yaw : F64
  pitch : F64
  roll : F64

/-- /repo/examples/dis_receiver.py:34-51: `loc` is the six arguments; `body[3]` is shown as yaw, `body[4]` as pitch and
`body[5]` as roll. `none` means that `ecef2lla` does not return. -/
noncomputable def shown (L : Numpy) (x y z psi theta phi : F64) : Option (Except PyErr Shown) :=
  match ecef2llarpy L x y z psi theta phi with
  | none => none
  | some (.error e) => some (.error e)
  | some (.ok body) => some (.ok ⟨rad2deg (body.1 0), rad2deg (body.1 1), body.1 2,
      rad2deg (body.2 0), rad2deg (body.2 1), rad2deg (body.2 2)⟩)

/-- What one call of `recv` prints, /repo/examples/dis_receiver.py:44-54: for an entity its number and the six numbers,
otherwise the class and the number of bytes. -/
inductive Line where
  /-- /repo/examples/dis_receiver.py:44-52 -/
  | entity (entityNumber : Int) (s : Shown)
  /-- /repo/examples/dis_receiver.py:54 -/
  | other (pduTypeName : PduClass) (bytes : Nat)

/-- `recv`, /repo/examples/dis_receiver.py:24-54, when the next datagram is `datagram`; `none` if it does not return. -/
noncomputable def recv (L : Numpy) (datagram : Bytes) : Option (Except PyErr Line) :=
  match Dis.recv datagram with
  | .error e => some (.error e)
  | .ok (.other c n) => some (.ok (.other c n))
  | .ok (.entity number x y z psi theta phi) =>
    match shown L x y z psi theta phi with
    | none => none
    | some (.error e) => some (.error e)
    | some (.ok s) => some (.ok (.entity number s))

/-- How the receiver stands after some datagrams (/repo/examples/dis_receiver.py:56-59). -/
inductive Standing where
  /-- waiting for the next one -/
  | waiting
  /-- ended by an exception -/
  | raised (e : PyErr)
  /-- in a conversion that never returns -/
  | stuck
  deriving DecidableEq

/-- `while True: recv()`, /repo/examples/dis_receiver.py:56-59, on the datagrams that arrive: what is printed, and how
it stands then. -/
noncomputable def receiver (L : Numpy) : List Bytes → List Line × Standing
  | [] => ([], .waiting)
  | datagram :: rest =>
    match recv L datagram with
    | none => ([], .stuck)
    | some (.error e) => ([], .raised e)
    | some (.ok l) => (l :: (receiver L rest).1, (receiver L rest).2)

end Dis.Dbl
