import Verif.Spec.IoFactory
import Verif.Source.Io

/-! # What `createPdu` of the source returns or raises (C79) -/

namespace Dis

open Src Io

/-- What `createPdu(d)` of the source returns or raises; the streams `io` are those of the caller and the recursion of the
interpreter may be deeper than needed (/repo/opendis/PduFactory.py:84-92). -/
def received (file : Io.Val → Except PyErr Bytes) (k n : Nat) (d : Bytes) (io : Streams) : Except PyErr Io.Val :=
  (run modules (world file k) (n + 3) none I.createPdu [.val (.bytes d)] io).1

end Dis
