import Verif.Model.Pdus1

/-!
# `PduSuperclass.__init__` of `opendis/dis7.py`

The constructor is called by every PDU constructor through `super().__init__()` without arguments; it can
also be called with arguments, on a class that declares its type number and family or on one that does not.
-/

namespace Dis

/-- The class attributes `pduType` and `protocolFamily` found on the class of `self` or its bases; `none`
where there is no such attribute (e.g. /repo/opendis/dis7.py:3727, :3766; none on `Pdu` and
`LiveEntityPdu`). -/
structure PduClassAttributes where
  pduType : Option Int := none
  protocolFamily : Option Int := none

/-- Looking up `self.pduType` or `self.protocolFamily`: no such attribute, `None`, or a number
(/repo/opendis/dis7.py:3444-3453). -/
inductive HeaderAttribute where
  | absent
  | none
  | num (v : Int)
  deriving DecidableEq

/-- Passing such an attribute to `struct.pack`: `AttributeError` if absent, `struct.error` for `None`
(/repo/opendis/dis7.py:3466-3467 through /repo/opendis/stream.py:118). -/
def HeaderAttribute.get : HeaderAttribute → Except PyErr Int
  | .absent => .error .attributeError
  | .none => .error .structError
  | .num v => .ok v

/-- Inheritance of a class attribute by the instance (/repo/opendis/dis7.py:3444, :3466). -/
def HeaderAttribute.ofClass : Option Int → HeaderAttribute
  | some v => .num v
  | .none => .absent

/-- A PDU object as far as `PduSuperclass.__init__` sets it up, /repo/opendis/dis7.py:3431-3460. -/
structure HeaderObject where
  protocolVersion : Int
  exerciseID : Int
  pduType : HeaderAttribute
  protocolFamily : HeaderAttribute
  timestamp : Int
  length : Int
  deriving DecidableEq

/-- `PduSuperclass.__init__`, /repo/opendis/dis7.py:3431-3460: `none` is the argument `None`. The second
`raise` (:3450-3451) tests `hasattr(self, 'pduType')` again. -/
def PduSuperclass.construct (cls : PduClassAttributes) (protocolVersion : Int := 7)
    (exerciseID : Int := 0) (pduType protocolFamily : Option Int := none) (timestamp : Int := 0)
    (pduLength : Int := 0) : Except PyErr HeaderObject :=
  let hasattrPduType := cls.pduType.isSome
  if pduType.isNone && !hasattrPduType then .error .valueError
  else
    let selfPduType := match pduType with
      | some t => HeaderAttribute.num t
      | none => HeaderAttribute.ofClass cls.pduType
    if protocolFamily.isNone && selfPduType == .absent then .error .valueError
    else
      let selfProtocolFamily := match pduType with
        | some _ => match protocolFamily with
          | some f => HeaderAttribute.num f
          | none => HeaderAttribute.none
        | none => HeaderAttribute.ofClass cls.protocolFamily
      .ok { protocolVersion := protocolVersion, exerciseID := exerciseID, pduType := selfPduType,
            protocolFamily := selfProtocolFamily, timestamp := timestamp, length := pduLength }

/-- `PduSuperclass.serialize`, /repo/opendis/dis7.py:3462-3469, on such an object. -/
def HeaderObject.serialize (self : HeaderObject) : W Unit := do
  write_unsigned_byte self.protocolVersion
  write_unsigned_byte self.exerciseID
  W.using self.pduType.get write_unsigned_byte
  W.using self.protocolFamily.get write_unsigned_byte
  write_unsigned_int self.timestamp
  write_unsigned_short self.length

end Dis
