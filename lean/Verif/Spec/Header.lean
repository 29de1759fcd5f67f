import Verif.Model.Pdus1

/-! # The header of a new PDU -/

namespace Dis

/-- The header a new PDU of the given type and protocol family should carry: version 7 (IEEE
1278.1-2012), exercise 0, no timestamp, length not yet filled in, no status bits
(/repo/opendis/dis7.py:3431-3460, :3701-3706). -/
structure Pdu.Header (p : Pdu) (type family : Int) : Prop where
  version : p.protocolVersion = 7
  exercise : p.exerciseID = 0
  pduType : p.pduType = type
  protocolFamily : p.protocolFamily = family
  timestamp : p.timestamp = 0
  length : p.length = 0
  status : p.pduStatus = 0
  padding : p.padding = 0

end Dis
