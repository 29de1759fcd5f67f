import Verif.Model.Factory

/-!
# Exceptions of the factory
-/

namespace Dis

/-- The exceptions that parsing a message into a fresh object of the class can raise: `struct.error`
for all but `LinearObjectStatePdu`, whose constructor raises (/repo/opendis/dis7.py:4119-4141);
`NameError` where `parse` uses an undefined name (/repo/opendis/dis7.py:2216, :4278, :4353, :6579,
:6860-6868, :7112-7117, :7297); `TypeError` of a wrong call (:6954) or an unexpected record class,
`ValueError` of a bit field or record length (/repo/opendis/record/__init__.py:80,
/repo/opendis/record/bitfield.py:111, /repo/opendis/record/base.py:90-107). -/
def PduClass.exceptions : PduClass → List PyErr
  | .LinearObjectStatePdu => [.nameError]
  | .ResupplyReceivedPdu | .UaPdu | .IntercomSignalPdu | .AggregateStatePdu | .MinefieldResponseNackPdu
  | .RecordQueryReliablePdu | .SeesPdu => [.structError, .nameError]
  | .IntercomControlPdu => [.structError, .typeError]
  | .TransmitterPdu | .EntityDamageStatusPdu | .DirectedEnergyFirePdu =>
    [.structError, .typeError, .valueError]
  | _ => [.structError]

/-- The exceptions `createPdu` can raise for messages of type `t`
(/repo/opendis/PduFactory.py:11-92). -/
def exceptionsOfType (t : Nat) : List PyErr :=
  if t = 44 then [.nameError]
  else if t ∈ [7, 29, 31, 33, 40, 63] then [.structError, .nameError]
  else if t = 32 then [.structError, .typeError]
  else if t ∈ [25, 69] then [.structError, .typeError, .valueError]
  else if t ∈ [1, 2, 3, 4, 5, 6, 9, 10, 11, 12, 13, 14, 15, 16, 17, 18, 19, 20, 21, 22, 23, 24, 26, 27, 36,
      37, 41, 43, 45, 51, 52, 54, 55, 56, 57, 58, 59, 60, 61, 62, 66, 67] then [.structError]
  else []

end Dis
