import Verif.Source.Names

/-!
# `opendis/dis7.py` as syntax trees, part 3

Written by `tools/gensource.py` from the Python source.
-/

namespace Dis.Src

/-- `PduSuperclass.__init__`, /repo/opendis/dis7.py:3431-3460. -/
def PduSuperclass.__init__ : Method where
  params := [(I.protocolVersion, some (.int 7)), (I.exerciseID, some (.int 0)), (I.pduType, some (.none)),
   (I.protocolFamily, some (.none)), (I.timestamp, some (.int 0)), (I.pduLength, some (.int 0))]
  property := false
  body :=
   [.assign (.attr (.name I.self) I.protocolVersion) (.name I.protocolVersion),
    .assign (.attr (.name I.self) I.exerciseID) (.name I.exerciseID),
    .ite (.and (.cmp .is (.name I.pduType) .none) (.not (.hasattr (.name I.self) I.pduType)))
      [.raise .valueError]
      [.ite (.cmp .isNot (.name I.pduType) .none)
         [.assign (.attr (.name I.self) I.pduType) (.name I.pduType)]
         []],
    .ite (.and (.cmp .is (.name I.protocolFamily) .none) (.not (.hasattr (.name I.self) I.pduType)))
      [.raise .valueError]
      [.ite (.cmp .isNot (.name I.pduType) .none)
         [.assign (.attr (.name I.self) I.protocolFamily) (.name I.protocolFamily)]
         []],
    .assign (.attr (.name I.self) I.timestamp) (.name I.timestamp),
    .assign (.attr (.name I.self) I.length) (.name I.pduLength)]

/-- `PduSuperclass.serialize`, /repo/opendis/dis7.py:3462-3469. -/
def PduSuperclass.serialize : Method where
  params := [(I.outputStream, none)]
  property := false
  body :=
   [.expr (.method (.name I.outputStream) I.write_unsigned_byte [.attr (.name I.self) I.protocolVersion] []),
    .expr (.method (.name I.outputStream) I.write_unsigned_byte [.attr (.name I.self) I.exerciseID] []),
    .expr (.method (.name I.outputStream) I.write_unsigned_byte [.attr (.name I.self) I.pduType] []),
    .expr (.method (.name I.outputStream) I.write_unsigned_byte [.attr (.name I.self) I.protocolFamily] []),
    .expr (.method (.name I.outputStream) I.write_unsigned_int [.attr (.name I.self) I.timestamp] []),
    .expr (.method (.name I.outputStream) I.write_unsigned_short [.attr (.name I.self) I.length] [])]

/-- `PduSuperclass.parse`, /repo/opendis/dis7.py:3471-3478. -/
def PduSuperclass.parse : Method where
  params := [(I.inputStream, none)]
  property := false
  body :=
   [.assign (.attr (.name I.self) I.protocolVersion) (.method (.name I.inputStream) I.read_unsigned_byte [] []),
    .assign (.attr (.name I.self) I.exerciseID) (.method (.name I.inputStream) I.read_unsigned_byte [] []),
    .assign (.attr (.name I.self) I.pduType) (.method (.name I.inputStream) I.read_unsigned_byte [] []),
    .assign (.attr (.name I.self) I.protocolFamily) (.method (.name I.inputStream) I.read_unsigned_byte [] []),
    .assign (.attr (.name I.self) I.timestamp) (.method (.name I.inputStream) I.read_unsigned_int [] []),
    .assign (.attr (.name I.self) I.length) (.method (.name I.inputStream) I.read_unsigned_short [] [])]

/-- `class PduSuperclass`, /repo/opendis/dis7.py:3424-3478. -/
def PduSuperclass : Class where
  base := none
  attrs := []
  methods :=
   [(I.__init__, PduSuperclass.__init__),
    (I.serialize, PduSuperclass.serialize),
    (I.parse, PduSuperclass.parse)]

/-- `CommunicationsNodeID.__init__`, /repo/opendis/dis7.py:3487-3491. -/
def CommunicationsNodeID.__init__ : Method where
  params := [(I.entityID, some (.none)), (I.elementID, some (.int 0))]
  property := false
  body :=
   [.assign (.attr (.name I.self) I.entityID) (.or (.name I.entityID) (.call I.EntityIdentifier [] [])),
    .assign (.attr (.name I.self) I.elementID) (.name I.elementID)]

/-- `CommunicationsNodeID.serialize`, /repo/opendis/dis7.py:3493-3496. -/
def CommunicationsNodeID.serialize : Method where
  params := [(I.outputStream, none)]
  property := false
  body :=
   [.expr (.method (.attr (.name I.self) I.entityID) I.serialize [.name I.outputStream] []),
    .expr (.method (.name I.outputStream) I.write_unsigned_short [.attr (.name I.self) I.elementID] [])]

/-- `CommunicationsNodeID.parse`, /repo/opendis/dis7.py:3498-3501. -/
def CommunicationsNodeID.parse : Method where
  params := [(I.inputStream, none)]
  property := false
  body :=
   [.expr (.method (.attr (.name I.self) I.entityID) I.parse [.name I.inputStream] []),
    .assign (.attr (.name I.self) I.elementID) (.method (.name I.inputStream) I.read_unsigned_short [] [])]

/-- `class CommunicationsNodeID`, /repo/opendis/dis7.py:3481-3501. -/
def CommunicationsNodeID : Class where
  base := none
  attrs := []
  methods :=
   [(I.__init__, CommunicationsNodeID.__init__),
    (I.serialize, CommunicationsNodeID.serialize),
    (I.parse, CommunicationsNodeID.parse)]

/-- `ExpendableDescriptor.__init__`, /repo/opendis/dis7.py:3510-3513. -/
def ExpendableDescriptor.__init__ : Method where
  params := [(I.expendableType, some (.none))]
  property := false
  body :=
   [.assign (.attr (.name I.self) I.expendableType) (.or (.name I.expendableType) (.call I.EntityType [] [])),
    .assign (.attr (.name I.self) I.padding) (.int 0)]

/-- `ExpendableDescriptor.serialize`, /repo/opendis/dis7.py:3515-3518. -/
def ExpendableDescriptor.serialize : Method where
  params := [(I.outputStream, none)]
  property := false
  body :=
   [.expr (.method (.attr (.name I.self) I.expendableType) I.serialize [.name I.outputStream] []),
    .expr (.method (.name I.outputStream) I.write_long [.attr (.name I.self) I.padding] [])]

/-- `ExpendableDescriptor.parse`, /repo/opendis/dis7.py:3520-3523. -/
def ExpendableDescriptor.parse : Method where
  params := [(I.inputStream, none)]
  property := false
  body :=
   [.expr (.method (.attr (.name I.self) I.expendableType) I.parse [.name I.inputStream] []),
    .assign (.attr (.name I.self) I.padding) (.method (.name I.inputStream) I.read_long [] [])]

/-- `class ExpendableDescriptor`, /repo/opendis/dis7.py:3504-3523. -/
def ExpendableDescriptor : Class where
  base := none
  attrs := []
  methods :=
   [(I.__init__, ExpendableDescriptor.__init__),
    (I.serialize, ExpendableDescriptor.serialize),
    (I.parse, ExpendableDescriptor.parse)]

/-- `PropulsionSystemData.__init__`, /repo/opendis/dis7.py:3534-3540. -/
def PropulsionSystemData.__init__ : Method where
  params := [(I.powerSetting, some (.float 0x0000000000000000)), (I.engineRpm, some (.float 0x0000000000000000))]
  property := false
  body :=
   [.assign (.attr (.name I.self) I.powerSetting) (.name I.powerSetting),
    .assign (.attr (.name I.self) I.engineRpm) (.name I.engineRpm)]

/-- `PropulsionSystemData.serialize`, /repo/opendis/dis7.py:3542-3545. -/
def PropulsionSystemData.serialize : Method where
  params := [(I.outputStream, none)]
  property := false
  body :=
   [.expr (.method (.name I.outputStream) I.write_float [.attr (.name I.self) I.powerSetting] []),
    .expr (.method (.name I.outputStream) I.write_float [.attr (.name I.self) I.engineRpm] [])]

/-- `PropulsionSystemData.parse`, /repo/opendis/dis7.py:3547-3550. -/
def PropulsionSystemData.parse : Method where
  params := [(I.inputStream, none)]
  property := false
  body :=
   [.assign (.attr (.name I.self) I.powerSetting) (.method (.name I.inputStream) I.read_float [] []),
    .assign (.attr (.name I.self) I.engineRpm) (.method (.name I.inputStream) I.read_float [] [])]

/-- `class PropulsionSystemData`, /repo/opendis/dis7.py:3526-3550. -/
def PropulsionSystemData : Class where
  base := none
  attrs := []
  methods :=
   [(I.__init__, PropulsionSystemData.__init__),
    (I.serialize, PropulsionSystemData.serialize),
    (I.parse, PropulsionSystemData.parse)]

/-- `LiveEntityIdentifier.__init__`, /repo/opendis/dis7.py:3560-3567. -/
def LiveEntityIdentifier.__init__ : Method where
  params := [(I.liveSimulationAddress, some (.none)), (I.entityNumber, some (.int 0))]
  property := false
  body :=
   [.assign (.attr (.name I.self) I.liveSimulationAddress) (.or (.name I.liveSimulationAddress) (.call I.LiveSimulationAddress [] [])),
    .assign (.attr (.name I.self) I.entityNumber) (.name I.entityNumber)]

/-- `LiveEntityIdentifier.serialize`, /repo/opendis/dis7.py:3569-3572. -/
def LiveEntityIdentifier.serialize : Method where
  params := [(I.outputStream, none)]
  property := false
  body :=
   [.expr (.method (.attr (.name I.self) I.liveSimulationAddress) I.serialize [.name I.outputStream] []),
    .expr (.method (.name I.outputStream) I.write_unsigned_short [.attr (.name I.self) I.entityNumber] [])]

/-- `LiveEntityIdentifier.parse`, /repo/opendis/dis7.py:3574-3577. -/
def LiveEntityIdentifier.parse : Method where
  params := [(I.inputStream, none)]
  property := false
  body :=
   [.expr (.method (.attr (.name I.self) I.liveSimulationAddress) I.parse [.name I.inputStream] []),
    .assign (.attr (.name I.self) I.entityNumber) (.method (.name I.inputStream) I.read_unsigned_short [] [])]

/-- `class LiveEntityIdentifier`, /repo/opendis/dis7.py:3553-3577. -/
def LiveEntityIdentifier : Class where
  base := none
  attrs := []
  methods :=
   [(I.__init__, LiveEntityIdentifier.__init__),
    (I.serialize, LiveEntityIdentifier.serialize),
    (I.parse, LiveEntityIdentifier.parse)]

/-- `SeparationVP.__init__`, /repo/opendis/dis7.py:3587-3601. -/
def SeparationVP.__init__ : Method where
  params := [(I.reasonForSeparation, some (.int 0)), (I.preEntityIndicator, some (.int 0)), (I.parentEntityID, some
   (.none)), (I.stationLocation, some (.none))]
  property := false
  body :=
   [.assign (.attr (.name I.self) I.reasonForSeparation) (.name I.reasonForSeparation),
    .assign (.attr (.name I.self) I.preEntityIndicator) (.name I.preEntityIndicator),
    .assign (.attr (.name I.self) I.padding1) (.int 0),
    .assign (.attr (.name I.self) I.parentEntityID) (.or (.name I.parentEntityID) (.call I.EntityIdentifier [] [])),
    .assign (.attr (.name I.self) I.padding2) (.int 0),
    .assign (.attr (.name I.self) I.stationLocation) (.or (.name I.stationLocation) (.call I.NamedLocationIdentification [] []))]

/-- `SeparationVP.serialize`, /repo/opendis/dis7.py:3603-3611. -/
def SeparationVP.serialize : Method where
  params := [(I.outputStream, none)]
  property := false
  body :=
   [.expr (.method (.name I.outputStream) I.write_unsigned_byte [.attr (.name I.self) I.recordType] []),
    .expr (.method (.name I.outputStream) I.write_unsigned_byte [.attr (.name I.self) I.reasonForSeparation] []),
    .expr (.method (.name I.outputStream) I.write_unsigned_byte [.attr (.name I.self) I.preEntityIndicator] []),
    .expr (.method (.name I.outputStream) I.write_unsigned_byte [.attr (.name I.self) I.padding1] []),
    .expr (.method (.attr (.name I.self) I.parentEntityID) I.serialize [.name I.outputStream] []),
    .expr (.method (.name I.outputStream) I.write_unsigned_short [.attr (.name I.self) I.padding2] []),
    .expr (.method (.name I.outputStream) I.write_unsigned_int [.attr (.name I.self) I.stationLocation] [])]

/-- `SeparationVP.parse`, /repo/opendis/dis7.py:3613-3621. -/
def SeparationVP.parse : Method where
  params := [(I.inputStream, none)]
  property := false
  body :=
   [.assign (.attr (.name I.self) I.recordType) (.method (.name I.inputStream) I.read_unsigned_byte [] []),
    .assign (.attr (.name I.self) I.reasonForSeparation) (.method (.name I.inputStream) I.read_unsigned_byte [] []),
    .assign (.attr (.name I.self) I.preEntityIndicator) (.method (.name I.inputStream) I.read_unsigned_byte [] []),
    .assign (.attr (.name I.self) I.padding1) (.method (.name I.inputStream) I.read_unsigned_byte [] []),
    .expr (.method (.attr (.name I.self) I.parentEntityID) I.parse [.name I.inputStream] []),
    .assign (.attr (.name I.self) I.padding2) (.method (.name I.inputStream) I.read_unsigned_short [] []),
    .assign (.attr (.name I.self) I.stationLocation) (.method (.name I.inputStream) I.read_unsigned_int [] [])]

/-- `class SeparationVP`, /repo/opendis/dis7.py:3580-3621. -/
def SeparationVP : Class where
  base := none
  attrs := [(I.recordType, .int 2)]
  methods :=
   [(I.__init__, SeparationVP.__init__),
    (I.serialize, SeparationVP.serialize),
    (I.parse, SeparationVP.parse)]

/-- `EmitterSystem.__init__`, /repo/opendis/dis7.py:3630-3636. -/
def EmitterSystem.__init__ : Method where
  params := [(I.emitterName, some (.int 0)), (I.emitterFunction, some (.int 0)), (I.emitterIDNumber, some (.int 0))]
  property := false
  body :=
   [.assign (.attr (.name I.self) I.emitterName) (.name I.emitterName),
    .assign (.attr (.name I.self) I.emitterFunction) (.name I.emitterFunction),
    .assign (.attr (.name I.self) I.emitterIDNumber) (.name I.emitterIDNumber)]

/-- `EmitterSystem.serialize`, /repo/opendis/dis7.py:3638-3642. -/
def EmitterSystem.serialize : Method where
  params := [(I.outputStream, none)]
  property := false
  body :=
   [.expr (.method (.name I.outputStream) I.write_unsigned_short [.attr (.name I.self) I.emitterName] []),
    .expr (.method (.name I.outputStream) I.write_unsigned_byte [.attr (.name I.self) I.emitterFunction] []),
    .expr (.method (.name I.outputStream) I.write_unsigned_byte [.attr (.name I.self) I.emitterIDNumber] [])]

/-- `EmitterSystem.parse`, /repo/opendis/dis7.py:3644-3648. -/
def EmitterSystem.parse : Method where
  params := [(I.inputStream, none)]
  property := false
  body :=
   [.assign (.attr (.name I.self) I.emitterName) (.method (.name I.inputStream) I.read_unsigned_short [] []),
    .assign (.attr (.name I.self) I.emitterFunction) (.method (.name I.inputStream) I.read_unsigned_byte [] []),
    .assign (.attr (.name I.self) I.emitterIDNumber) (.method (.name I.inputStream) I.read_unsigned_byte [] [])]

/-- `class EmitterSystem`, /repo/opendis/dis7.py:3624-3648. -/
def EmitterSystem : Class where
  base := none
  attrs := []
  methods :=
   [(I.__init__, EmitterSystem.__init__),
    (I.serialize, EmitterSystem.serialize),
    (I.parse, EmitterSystem.parse)]

/-- `PduStatus.__init__`, /repo/opendis/dis7.py:3658-3660. -/
def PduStatus.__init__ : Method where
  params := [(I.pduStatus, some (.int 0))]
  property := false
  body :=
   [.assign (.attr (.name I.self) I.pduStatus) (.name I.pduStatus)]

/-- `PduStatus.serialize`, /repo/opendis/dis7.py:3662-3664. -/
def PduStatus.serialize : Method where
  params := [(I.outputStream, none)]
  property := false
  body :=
   [.expr (.method (.name I.outputStream) I.write_unsigned_byte [.attr (.name I.self) I.pduStatus] [])]

/-- `PduStatus.parse`, /repo/opendis/dis7.py:3666-3668. -/
def PduStatus.parse : Method where
  params := [(I.inputStream, none)]
  property := false
  body :=
   [.assign (.attr (.name I.self) I.pduStatus) (.method (.name I.inputStream) I.read_unsigned_byte [] [])]

/-- `class PduStatus`, /repo/opendis/dis7.py:3651-3668. -/
def PduStatus : Class where
  base := none
  attrs := []
  methods :=
   [(I.__init__, PduStatus.__init__),
    (I.serialize, PduStatus.serialize),
    (I.parse, PduStatus.parse)]

/-- `LiveEntityPdu.__init__`, /repo/opendis/dis7.py:3678-3683. -/
def LiveEntityPdu.__init__ : Method where
  params := [(I.subprotocolNumber, some (.int 0))]
  property := false
  body :=
   [.expr (.super (some I.LiveEntityPdu) I.__init__ [] []),
    .assign (.attr (.name I.self) I.subprotocolNumber) (.name I.subprotocolNumber),
    .assign (.attr (.name I.self) I.padding) (.int 0)]

/-- `LiveEntityPdu.serialize`, /repo/opendis/dis7.py:3685-3689. -/
def LiveEntityPdu.serialize : Method where
  params := [(I.outputStream, none)]
  property := false
  body :=
   [.expr (.super (some I.LiveEntityPdu) I.serialize [.name I.outputStream] []),
    .expr (.method (.name I.outputStream) I.write_unsigned_short [.attr (.name I.self) I.subprotocolNumber] []),
    .expr (.method (.name I.outputStream) I.write_unsigned_byte [.attr (.name I.self) I.padding] [])]

/-- `LiveEntityPdu.parse`, /repo/opendis/dis7.py:3691-3695. -/
def LiveEntityPdu.parse : Method where
  params := [(I.inputStream, none)]
  property := false
  body :=
   [.expr (.super (some I.LiveEntityPdu) I.parse [.name I.inputStream] []),
    .assign (.attr (.name I.self) I.subprotocolNumber) (.method (.name I.inputStream) I.read_unsigned_short [] []),
    .assign (.attr (.name I.self) I.padding) (.method (.name I.inputStream) I.read_unsigned_byte [] [])]

/-- `class LiveEntityPdu`, /repo/opendis/dis7.py:3671-3695. -/
def LiveEntityPdu : Class where
  base := some I.PduSuperclass
  attrs := []
  methods :=
   [(I.__init__, LiveEntityPdu.__init__),
    (I.serialize, LiveEntityPdu.serialize),
    (I.parse, LiveEntityPdu.parse)]

/-- `Pdu.__init__`, /repo/opendis/dis7.py:3701-3706. -/
def Pdu.__init__ : Method where
  params := [(I.pduStatus, some (.int 0))]
  property := false
  body :=
   [.expr (.super (some I.Pdu) I.__init__ [] []),
    .assign (.attr (.name I.self) I.pduStatus) (.name I.pduStatus),
    .assign (.attr (.name I.self) I.padding) (.int 0)]

/-- `Pdu.serialize`, /repo/opendis/dis7.py:3708-3712. -/
def Pdu.serialize : Method where
  params := [(I.outputStream, none)]
  property := false
  body :=
   [.expr (.super (some I.Pdu) I.serialize [.name I.outputStream] []),
    .expr (.method (.name I.outputStream) I.write_unsigned_byte [.attr (.name I.self) I.pduStatus] []),
    .expr (.method (.name I.outputStream) I.write_unsigned_byte [.attr (.name I.self) I.padding] [])]

/-- `Pdu.parse`, /repo/opendis/dis7.py:3714-3718. -/
def Pdu.parse : Method where
  params := [(I.inputStream, none)]
  property := false
  body :=
   [.expr (.super (some I.Pdu) I.parse [.name I.inputStream] []),
    .assign (.attr (.name I.self) I.pduStatus) (.method (.name I.inputStream) I.read_unsigned_byte [] []),
    .assign (.attr (.name I.self) I.padding) (.method (.name I.inputStream) I.read_unsigned_byte [] [])]

/-- `class Pdu`, /repo/opendis/dis7.py:3698-3718. -/
def Pdu : Class where
  base := some I.PduSuperclass
  attrs := []
  methods :=
   [(I.__init__, Pdu.__init__),
    (I.serialize, Pdu.serialize),
    (I.parse, Pdu.parse)]

/-- `EntityInformationFamilyPdu.__init__`, /repo/opendis/dis7.py:3729-3730. -/
def EntityInformationFamilyPdu.__init__ : Method where
  params := []
  property := false
  body :=
   [.expr (.super (some I.EntityInformationFamilyPdu) I.__init__ [] [])]

/-- `EntityInformationFamilyPdu.serialize`, /repo/opendis/dis7.py:3732-3734. -/
def EntityInformationFamilyPdu.serialize : Method where
  params := [(I.outputStream, none)]
  property := false
  body :=
   [.expr (.super (some I.EntityInformationFamilyPdu) I.serialize [.name I.outputStream] [])]

/-- `EntityInformationFamilyPdu.parse`, /repo/opendis/dis7.py:3736-3738. -/
def EntityInformationFamilyPdu.parse : Method where
  params := [(I.inputStream, none)]
  property := false
  body :=
   [.expr (.super (some I.EntityInformationFamilyPdu) I.parse [.name I.inputStream] [])]

/-- `class EntityInformationFamilyPdu`, /repo/opendis/dis7.py:3721-3738. -/
def EntityInformationFamilyPdu : Class where
  base := some I.Pdu
  attrs := [(I.protocolFamily, .int 1)]
  methods :=
   [(I.__init__, EntityInformationFamilyPdu.__init__),
    (I.serialize, EntityInformationFamilyPdu.serialize),
    (I.parse, EntityInformationFamilyPdu.parse)]

/-- `LogisticsFamilyPdu.__init__`, /repo/opendis/dis7.py:3748-3749. -/
def LogisticsFamilyPdu.__init__ : Method where
  params := []
  property := false
  body :=
   [.expr (.super (some I.LogisticsFamilyPdu) I.__init__ [] [])]

/-- `LogisticsFamilyPdu.serialize`, /repo/opendis/dis7.py:3751-3753. -/
def LogisticsFamilyPdu.serialize : Method where
  params := [(I.outputStream, none)]
  property := false
  body :=
   [.expr (.super (some I.LogisticsFamilyPdu) I.serialize [.name I.outputStream] [])]

/-- `LogisticsFamilyPdu.parse`, /repo/opendis/dis7.py:3755-3757. -/
def LogisticsFamilyPdu.parse : Method where
  params := [(I.inputStream, none)]
  property := false
  body :=
   [.expr (.super (some I.LogisticsFamilyPdu) I.parse [.name I.inputStream] [])]

/-- `class LogisticsFamilyPdu`, /repo/opendis/dis7.py:3741-3757. -/
def LogisticsFamilyPdu : Class where
  base := some I.Pdu
  attrs := [(I.protocolFamily, .int 3)]
  methods :=
   [(I.__init__, LogisticsFamilyPdu.__init__),
    (I.serialize, LogisticsFamilyPdu.serialize),
    (I.parse, LogisticsFamilyPdu.parse)]

/-- `EntityStateUpdatePdu.__init__`, /repo/opendis/dis7.py:3768-3788. -/
def EntityStateUpdatePdu.__init__ : Method where
  params := [(I.entityID, some (.none)), (I.entityLinearVelocity, some (.none)), (I.entityLocation, some (.none)),
   (I.entityOrientation, some (.none)), (I.entityAppearance, some (.int 0)), (I.variableParameters, some
   (.none))]
  property := false
  body :=
   [.expr (.super (some I.EntityStateUpdatePdu) I.__init__ [] []),
    .assign (.attr (.name I.self) I.entityID) (.or (.name I.entityID) (.call I.EntityIdentifier [] [])),
    .assign (.attr (.name I.self) I.padding1) (.int 0),
    .assign (.attr (.name I.self) I.entityLinearVelocity) (.or (.name I.entityLinearVelocity) (.call I.Vector3Float [] [])),
    .assign (.attr (.name I.self) I.entityLocation) (.or (.name I.entityLocation) (.call I.WorldCoordinates [] [])),
    .assign (.attr (.name I.self) I.entityOrientation) (.or (.name I.entityOrientation) (.call I.EulerAngles [] [])),
    .assign (.attr (.name I.self) I.entityAppearance) (.name I.entityAppearance),
    .assign (.attr (.name I.self) I.variableParameters) (.or (.name I.variableParameters) (.list []))]

/-- `EntityStateUpdatePdu.numberOfVariableParameters`, /repo/opendis/dis7.py:3791-3792. -/
def EntityStateUpdatePdu.numberOfVariableParameters : Method where
  params := []
  property := true
  body :=
   [.ret (.call I.len [.attr (.name I.self) I.variableParameters] [])]

/-- `EntityStateUpdatePdu.serialize`, /repo/opendis/dis7.py:3794-3805. -/
def EntityStateUpdatePdu.serialize : Method where
  params := [(I.outputStream, none)]
  property := false
  body :=
   [.expr (.super (some I.EntityStateUpdatePdu) I.serialize [.name I.outputStream] []),
    .expr (.method (.attr (.name I.self) I.entityID) I.serialize [.name I.outputStream] []),
    .expr (.method (.name I.outputStream) I.write_byte [.attr (.name I.self) I.padding1] []),
    .expr (.method (.name I.outputStream) I.write_unsigned_byte [.attr (.name I.self) I.numberOfVariableParameters] []),
    .expr (.method (.attr (.name I.self) I.entityLinearVelocity) I.serialize [.name I.outputStream] []),
    .expr (.method (.attr (.name I.self) I.entityLocation) I.serialize [.name I.outputStream] []),
    .expr (.method (.attr (.name I.self) I.entityOrientation) I.serialize [.name I.outputStream] []),
    .expr (.method (.name I.outputStream) I.write_unsigned_int [.attr (.name I.self) I.entityAppearance] []),
    .for I.anObj (.attr (.name I.self) I.variableParameters)
      [.expr (.method (.name I.anObj) I.serialize [.name I.outputStream] [])]]

/-- `EntityStateUpdatePdu.parse`, /repo/opendis/dis7.py:3807-3820. -/
def EntityStateUpdatePdu.parse : Method where
  params := [(I.inputStream, none)]
  property := false
  body :=
   [.expr (.super (some I.EntityStateUpdatePdu) I.parse [.name I.inputStream] []),
    .expr (.method (.attr (.name I.self) I.entityID) I.parse [.name I.inputStream] []),
    .assign (.attr (.name I.self) I.padding1) (.method (.name I.inputStream) I.read_byte [] []),
    .assign (.name I.numberOfVariableParameters) (.method (.name I.inputStream) I.read_unsigned_byte [] []),
    .expr (.method (.attr (.name I.self) I.entityLinearVelocity) I.parse [.name I.inputStream] []),
    .expr (.method (.attr (.name I.self) I.entityLocation) I.parse [.name I.inputStream] []),
    .expr (.method (.attr (.name I.self) I.entityOrientation) I.parse [.name I.inputStream] []),
    .assign (.attr (.name I.self) I.entityAppearance) (.method (.name I.inputStream) I.read_unsigned_int [] []),
    .for I.idx (.call I.range [.int 0, .name I.numberOfVariableParameters] [])
      [.assign (.name I.element) (.call I.VariableParameter [] []),
       .expr (.method (.name I.element) I.parse [.name I.inputStream] []),
       .expr (.method (.attr (.name I.self) I.variableParameters) I.append [.name I.element] [])]]

/-- `class EntityStateUpdatePdu`, /repo/opendis/dis7.py:3760-3820. -/
def EntityStateUpdatePdu : Class where
  base := some I.EntityInformationFamilyPdu
  attrs := [(I.pduType, .int 67)]
  methods :=
   [(I.__init__, EntityStateUpdatePdu.__init__),
    (I.numberOfVariableParameters, EntityStateUpdatePdu.numberOfVariableParameters),
    (I.serialize, EntityStateUpdatePdu.serialize),
    (I.parse, EntityStateUpdatePdu.parse)]

/-- `ServiceRequestPdu.__init__`, /repo/opendis/dis7.py:3831-3844. -/
def ServiceRequestPdu.__init__ : Method where
  params := [(I.requestingEntityID, some (.none)), (I.servicingEntityID, some (.none)), (I.serviceTypeRequested, some
   (.int 0)), (I.supplies, some (.none))]
  property := false
  body :=
   [.expr (.super (some I.ServiceRequestPdu) I.__init__ [] []),
    .assign (.attr (.name I.self) I.requestingEntityID) (.or (.name I.requestingEntityID) (.call I.EntityIdentifier [] [])),
    .assign (.attr (.name I.self) I.servicingEntityID) (.or (.name I.servicingEntityID) (.call I.EntityIdentifier [] [])),
    .assign (.attr (.name I.self) I.serviceTypeRequested) (.name I.serviceTypeRequested),
    .assign (.attr (.name I.self) I.serviceRequestPadding) (.int 0),
    .assign (.attr (.name I.self) I.supplies) (.or (.name I.supplies) (.list []))]

/-- `ServiceRequestPdu.numberOfSupplyTypes`, /repo/opendis/dis7.py:3847-3848. -/
def ServiceRequestPdu.numberOfSupplyTypes : Method where
  params := []
  property := true
  body :=
   [.ret (.call I.len [.attr (.name I.self) I.supplies] [])]

/-- `ServiceRequestPdu.serialize`, /repo/opendis/dis7.py:3850-3859. -/
def ServiceRequestPdu.serialize : Method where
  params := [(I.outputStream, none)]
  property := false
  body :=
   [.expr (.super (some I.ServiceRequestPdu) I.serialize [.name I.outputStream] []),
    .expr (.method (.attr (.name I.self) I.requestingEntityID) I.serialize [.name I.outputStream] []),
    .expr (.method (.attr (.name I.self) I.servicingEntityID) I.serialize [.name I.outputStream] []),
    .expr (.method (.name I.outputStream) I.write_unsigned_byte [.attr (.name I.self) I.serviceTypeRequested] []),
    .expr (.method (.name I.outputStream) I.write_unsigned_byte [.attr (.name I.self) I.numberOfSupplyTypes] []),
    .expr (.method (.name I.outputStream) I.write_short [.attr (.name I.self) I.serviceRequestPadding] []),
    .for I.anObj (.attr (.name I.self) I.supplies)
      [.expr (.method (.name I.anObj) I.serialize [.name I.outputStream] [])]]

/-- `ServiceRequestPdu.parse`, /repo/opendis/dis7.py:3861-3872. -/
def ServiceRequestPdu.parse : Method where
  params := [(I.inputStream, none)]
  property := false
  body :=
   [.expr (.super (some I.ServiceRequestPdu) I.parse [.name I.inputStream] []),
    .expr (.method (.attr (.name I.self) I.requestingEntityID) I.parse [.name I.inputStream] []),
    .expr (.method (.attr (.name I.self) I.servicingEntityID) I.parse [.name I.inputStream] []),
    .assign (.attr (.name I.self) I.serviceTypeRequested) (.method (.name I.inputStream) I.read_unsigned_byte [] []),
    .assign (.name I.numberOfSupplyTypes) (.method (.name I.inputStream) I.read_unsigned_byte [] []),
    .assign (.attr (.name I.self) I.serviceRequestPadding) (.method (.name I.inputStream) I.read_short [] []),
    .for I.idx (.call I.range [.int 0, .name I.numberOfSupplyTypes] [])
      [.assign (.name I.element) (.call I.SupplyQuantity [] []),
       .expr (.method (.name I.element) I.parse [.name I.inputStream] []),
       .expr (.method (.attr (.name I.self) I.supplies) I.append [.name I.element] [])]]

/-- `class ServiceRequestPdu`, /repo/opendis/dis7.py:3823-3872. -/
def ServiceRequestPdu : Class where
  base := some I.LogisticsFamilyPdu
  attrs := [(I.pduType, .int 5)]
  methods :=
   [(I.__init__, ServiceRequestPdu.__init__),
    (I.numberOfSupplyTypes, ServiceRequestPdu.numberOfSupplyTypes),
    (I.serialize, ServiceRequestPdu.serialize),
    (I.parse, ServiceRequestPdu.parse)]

/-- `RepairCompletePdu.__init__`, /repo/opendis/dis7.py:3882-3894. -/
def RepairCompletePdu.__init__ : Method where
  params := [(I.receivingEntityID, some (.none)), (I.repairingEntityID, some (.none)), (I.repair, some (.int 0))]
  property := false
  body :=
   [.expr (.super (some I.RepairCompletePdu) I.__init__ [] []),
    .assign (.attr (.name I.self) I.receivingEntityID) (.or (.name I.receivingEntityID) (.call I.EntityIdentifier [] [])),
    .assign (.attr (.name I.self) I.repairingEntityID) (.or (.name I.repairingEntityID) (.call I.EntityIdentifier [] [])),
    .assign (.attr (.name I.self) I.repair) (.name I.repair),
    .assign (.attr (.name I.self) I.padding4) (.int 0)]

/-- `RepairCompletePdu.serialize`, /repo/opendis/dis7.py:3896-3902. -/
def RepairCompletePdu.serialize : Method where
  params := [(I.outputStream, none)]
  property := false
  body :=
   [.expr (.super (some I.RepairCompletePdu) I.serialize [.name I.outputStream] []),
    .expr (.method (.attr (.name I.self) I.receivingEntityID) I.serialize [.name I.outputStream] []),
    .expr (.method (.attr (.name I.self) I.repairingEntityID) I.serialize [.name I.outputStream] []),
    .expr (.method (.name I.outputStream) I.write_unsigned_short [.attr (.name I.self) I.repair] []),
    .expr (.method (.name I.outputStream) I.write_short [.attr (.name I.self) I.padding4] [])]

/-- `RepairCompletePdu.parse`, /repo/opendis/dis7.py:3904-3910. -/
def RepairCompletePdu.parse : Method where
  params := [(I.inputStream, none)]
  property := false
  body :=
   [.expr (.super (some I.RepairCompletePdu) I.parse [.name I.inputStream] []),
    .expr (.method (.attr (.name I.self) I.receivingEntityID) I.parse [.name I.inputStream] []),
    .expr (.method (.attr (.name I.self) I.repairingEntityID) I.parse [.name I.inputStream] []),
    .assign (.attr (.name I.self) I.repair) (.method (.name I.inputStream) I.read_unsigned_short [] []),
    .assign (.attr (.name I.self) I.padding4) (.method (.name I.inputStream) I.read_short [] [])]

/-- `class RepairCompletePdu`, /repo/opendis/dis7.py:3875-3910. -/
def RepairCompletePdu : Class where
  base := some I.LogisticsFamilyPdu
  attrs := [(I.pduType, .int 9)]
  methods :=
   [(I.__init__, RepairCompletePdu.__init__),
    (I.serialize, RepairCompletePdu.serialize),
    (I.parse, RepairCompletePdu.parse)]

/-- `SyntheticEnvironmentFamilyPdu.__init__`, /repo/opendis/dis7.py:3920-3921. -/
def SyntheticEnvironmentFamilyPdu.__init__ : Method where
  params := []
  property := false
  body :=
   [.expr (.super (some I.SyntheticEnvironmentFamilyPdu) I.__init__ [] [])]

/-- `SyntheticEnvironmentFamilyPdu.serialize`, /repo/opendis/dis7.py:3923-3925. -/
def SyntheticEnvironmentFamilyPdu.serialize : Method where
  params := [(I.outputStream, none)]
  property := false
  body :=
   [.expr (.super (some I.SyntheticEnvironmentFamilyPdu) I.serialize [.name I.outputStream] [])]

/-- `SyntheticEnvironmentFamilyPdu.parse`, /repo/opendis/dis7.py:3927-3929. -/
def SyntheticEnvironmentFamilyPdu.parse : Method where
  params := [(I.inputStream, none)]
  property := false
  body :=
   [.expr (.super (some I.SyntheticEnvironmentFamilyPdu) I.parse [.name I.inputStream] [])]

/-- `class SyntheticEnvironmentFamilyPdu`, /repo/opendis/dis7.py:3913-3929. -/
def SyntheticEnvironmentFamilyPdu : Class where
  base := some I.Pdu
  attrs := [(I.protocolFamily, .int 9)]
  methods :=
   [(I.__init__, SyntheticEnvironmentFamilyPdu.__init__),
    (I.serialize, SyntheticEnvironmentFamilyPdu.serialize),
    (I.parse, SyntheticEnvironmentFamilyPdu.parse)]

/-- `CollisionPdu.__init__`, /repo/opendis/dis7.py:3940-3963. -/
def CollisionPdu.__init__ : Method where
  params := [(I.issuingEntityID, some (.none)), (I.collidingEntityID, some (.none)), (I.eventID, some (.none)),
   (I.collisionType, some (.int 0)), (I.velocity, some (.none)), (I.mass, some (.float 0x0000000000000000)),
   (I.location, some (.none))]
  property := false
  body :=
   [.expr (.super (some I.CollisionPdu) I.__init__ [] []),
    .assign (.attr (.name I.self) I.issuingEntityID) (.or (.name I.issuingEntityID) (.call I.EntityIdentifier [] [])),
    .assign (.attr (.name I.self) I.collidingEntityID) (.or (.name I.collidingEntityID) (.call I.EntityIdentifier [] [])),
    .assign (.attr (.name I.self) I.eventID) (.or (.name I.eventID) (.call I.EventIdentifier [] [])),
    .assign (.attr (.name I.self) I.collisionType) (.name I.collisionType),
    .assign (.attr (.name I.self) I.pad) (.int 0),
    .assign (.attr (.name I.self) I.velocity) (.or (.name I.velocity) (.call I.Vector3Float [] [])),
    .assign (.attr (.name I.self) I.mass) (.name I.mass),
    .assign (.attr (.name I.self) I.location) (.or (.name I.location) (.call I.Vector3Float [] []))]

/-- `CollisionPdu.serialize`, /repo/opendis/dis7.py:3965-3975. -/
def CollisionPdu.serialize : Method where
  params := [(I.outputStream, none)]
  property := false
  body :=
   [.expr (.super (some I.CollisionPdu) I.serialize [.name I.outputStream] []),
    .expr (.method (.attr (.name I.self) I.issuingEntityID) I.serialize [.name I.outputStream] []),
    .expr (.method (.attr (.name I.self) I.collidingEntityID) I.serialize [.name I.outputStream] []),
    .expr (.method (.attr (.name I.self) I.eventID) I.serialize [.name I.outputStream] []),
    .expr (.method (.name I.outputStream) I.write_unsigned_byte [.attr (.name I.self) I.collisionType] []),
    .expr (.method (.name I.outputStream) I.write_byte [.attr (.name I.self) I.pad] []),
    .expr (.method (.attr (.name I.self) I.velocity) I.serialize [.name I.outputStream] []),
    .expr (.method (.name I.outputStream) I.write_float [.attr (.name I.self) I.mass] []),
    .expr (.method (.attr (.name I.self) I.location) I.serialize [.name I.outputStream] [])]

/-- `CollisionPdu.parse`, /repo/opendis/dis7.py:3977-3987. -/
def CollisionPdu.parse : Method where
  params := [(I.inputStream, none)]
  property := false
  body :=
   [.expr (.super (some I.CollisionPdu) I.parse [.name I.inputStream] []),
    .expr (.method (.attr (.name I.self) I.issuingEntityID) I.parse [.name I.inputStream] []),
    .expr (.method (.attr (.name I.self) I.collidingEntityID) I.parse [.name I.inputStream] []),
    .expr (.method (.attr (.name I.self) I.eventID) I.parse [.name I.inputStream] []),
    .assign (.attr (.name I.self) I.collisionType) (.method (.name I.inputStream) I.read_unsigned_byte [] []),
    .assign (.attr (.name I.self) I.pad) (.method (.name I.inputStream) I.read_byte [] []),
    .expr (.method (.attr (.name I.self) I.velocity) I.parse [.name I.inputStream] []),
    .assign (.attr (.name I.self) I.mass) (.method (.name I.inputStream) I.read_float [] []),
    .expr (.method (.attr (.name I.self) I.location) I.parse [.name I.inputStream] [])]

/-- `class CollisionPdu`, /repo/opendis/dis7.py:3932-3987. -/
def CollisionPdu : Class where
  base := some I.EntityInformationFamilyPdu
  attrs := [(I.pduType, .int 4)]
  methods :=
   [(I.__init__, CollisionPdu.__init__),
    (I.serialize, CollisionPdu.serialize),
    (I.parse, CollisionPdu.parse)]

/-- `RepairResponsePdu.__init__`, /repo/opendis/dis7.py:3997-4009. -/
def RepairResponsePdu.__init__ : Method where
  params := [(I.receivingEntityID, some (.none)), (I.repairingEntityID, some (.none)), (I.repairResult, some (.int 0))]
  property := false
  body :=
   [.expr (.super (some I.RepairResponsePdu) I.__init__ [] []),
    .assign (.attr (.name I.self) I.receivingEntityID) (.or (.name I.receivingEntityID) (.call I.EntityIdentifier [] [])),
    .assign (.attr (.name I.self) I.repairingEntityID) (.or (.name I.repairingEntityID) (.call I.EntityIdentifier [] [])),
    .assign (.attr (.name I.self) I.repairResult) (.name I.repairResult),
    .assign (.attr (.name I.self) I.padding1) (.int 0),
    .assign (.attr (.name I.self) I.padding2) (.int 0)]

/-- `RepairResponsePdu.serialize`, /repo/opendis/dis7.py:4011-4018. -/
def RepairResponsePdu.serialize : Method where
  params := [(I.outputStream, none)]
  property := false
  body :=
   [.expr (.super (some I.RepairResponsePdu) I.serialize [.name I.outputStream] []),
    .expr (.method (.attr (.name I.self) I.receivingEntityID) I.serialize [.name I.outputStream] []),
    .expr (.method (.attr (.name I.self) I.repairingEntityID) I.serialize [.name I.outputStream] []),
    .expr (.method (.name I.outputStream) I.write_unsigned_byte [.attr (.name I.self) I.repairResult] []),
    .expr (.method (.name I.outputStream) I.write_short [.attr (.name I.self) I.padding1] []),
    .expr (.method (.name I.outputStream) I.write_byte [.attr (.name I.self) I.padding2] [])]

/-- `RepairResponsePdu.parse`, /repo/opendis/dis7.py:4020-4027. -/
def RepairResponsePdu.parse : Method where
  params := [(I.inputStream, none)]
  property := false
  body :=
   [.expr (.super (some I.RepairResponsePdu) I.parse [.name I.inputStream] []),
    .expr (.method (.attr (.name I.self) I.receivingEntityID) I.parse [.name I.inputStream] []),
    .expr (.method (.attr (.name I.self) I.repairingEntityID) I.parse [.name I.inputStream] []),
    .assign (.attr (.name I.self) I.repairResult) (.method (.name I.inputStream) I.read_unsigned_byte [] []),
    .assign (.attr (.name I.self) I.padding1) (.method (.name I.inputStream) I.read_short [] []),
    .assign (.attr (.name I.self) I.padding2) (.method (.name I.inputStream) I.read_byte [] [])]

/-- `class RepairResponsePdu`, /repo/opendis/dis7.py:3990-4027. -/
def RepairResponsePdu : Class where
  base := some I.LogisticsFamilyPdu
  attrs := [(I.pduType, .int 10)]
  methods :=
   [(I.__init__, RepairResponsePdu.__init__),
    (I.serialize, RepairResponsePdu.serialize),
    (I.parse, RepairResponsePdu.parse)]

/-- `SimulationManagementFamilyPdu.__init__`, /repo/opendis/dis7.py:4037-4044. -/
def SimulationManagementFamilyPdu.__init__ : Method where
  params := [(I.originatingEntityID, some (.none)), (I.receivingEntityID, some (.none))]
  property := false
  body :=
   [.expr (.super (some I.SimulationManagementFamilyPdu) I.__init__ [] []),
    .assign (.attr (.name I.self) I.originatingEntityID) (.or (.name I.originatingEntityID) (.call I.EntityIdentifier [] [])),
    .assign (.attr (.name I.self) I.receivingEntityID) (.or (.name I.receivingEntityID) (.call I.EntityIdentifier [] []))]

/-- `SimulationManagementFamilyPdu.serialize`, /repo/opendis/dis7.py:4046-4050. -/
def SimulationManagementFamilyPdu.serialize : Method where
  params := [(I.outputStream, none)]
  property := false
  body :=
   [.expr (.super (some I.SimulationManagementFamilyPdu) I.serialize [.name I.outputStream] []),
    .expr (.method (.attr (.name I.self) I.originatingEntityID) I.serialize [.name I.outputStream] []),
    .expr (.method (.attr (.name I.self) I.receivingEntityID) I.serialize [.name I.outputStream] [])]

/-- `SimulationManagementFamilyPdu.parse`, /repo/opendis/dis7.py:4052-4056. -/
def SimulationManagementFamilyPdu.parse : Method where
  params := [(I.inputStream, none)]
  property := false
  body :=
   [.expr (.super (some I.SimulationManagementFamilyPdu) I.parse [.name I.inputStream] []),
    .expr (.method (.attr (.name I.self) I.originatingEntityID) I.parse [.name I.inputStream] []),
    .expr (.method (.attr (.name I.self) I.receivingEntityID) I.parse [.name I.inputStream] [])]

/-- `class SimulationManagementFamilyPdu`, /repo/opendis/dis7.py:4030-4056. -/
def SimulationManagementFamilyPdu : Class where
  base := some I.Pdu
  attrs := [(I.protocolFamily, .int 5)]
  methods :=
   [(I.__init__, SimulationManagementFamilyPdu.__init__),
    (I.serialize, SimulationManagementFamilyPdu.serialize),
    (I.parse, SimulationManagementFamilyPdu.parse)]

/-- `DataQueryPdu.__init__`, /repo/opendis/dis7.py:4066-4077. -/
def DataQueryPdu.__init__ : Method where
  params := [(I.requestID, some (.int 0)), (I.timeInterval, some (.int 0)), (I.fixedDatumIDs, some (.none)),
   (I.variableDatumIDs, some (.none))]
  property := false
  body :=
   [.expr (.super (some I.DataQueryPdu) I.__init__ [] []),
    .assign (.attr (.name I.self) I.requestID) (.int 0),
    .assign (.attr (.name I.self) I.timeInterval) (.int 0),
    .assign (.attr (.name I.self) I._dataQuery) (.call I.DataQueryDatumSpecification [.or (.name I.fixedDatumIDs) (.list []), .or (.name I.variableDatumIDs) (.list [])] [])]

/-- `DataQueryPdu.numberOfFixedDatumIDs`, /repo/opendis/dis7.py:4080-4081. -/
def DataQueryPdu.numberOfFixedDatumIDs : Method where
  params := []
  property := true
  body :=
   [.ret (.attr (.attr (.name I.self) I._dataQuery) I.numberOfFixedDatumIDs)]

/-- `DataQueryPdu.numberOfVariableDatumIDs`, /repo/opendis/dis7.py:4084-4085. -/
def DataQueryPdu.numberOfVariableDatumIDs : Method where
  params := []
  property := true
  body :=
   [.ret (.attr (.attr (.name I.self) I._dataQuery) I.numberOfVariableDatumIDs)]

/-- `DataQueryPdu.fixedDatumIDs`, /repo/opendis/dis7.py:4088-4089. -/
def DataQueryPdu.fixedDatumIDs : Method where
  params := []
  property := true
  body :=
   [.ret (.attr (.attr (.name I.self) I._dataQuery) I.fixedDatumIDs)]

/-- `DataQueryPdu.variableDatumIDs`, /repo/opendis/dis7.py:4092-4093. -/
def DataQueryPdu.variableDatumIDs : Method where
  params := []
  property := true
  body :=
   [.ret (.attr (.attr (.name I.self) I._dataQuery) I.variableDatumIDs)]

/-- `DataQueryPdu.serialize`, /repo/opendis/dis7.py:4095-4100. -/
def DataQueryPdu.serialize : Method where
  params := [(I.outputStream, none)]
  property := false
  body :=
   [.expr (.super (some I.DataQueryPdu) I.serialize [.name I.outputStream] []),
    .expr (.method (.name I.outputStream) I.write_unsigned_int [.attr (.name I.self) I.requestID] []),
    .expr (.method (.name I.outputStream) I.write_unsigned_int [.attr (.name I.self) I.timeInterval] []),
    .expr (.method (.attr (.name I.self) I._dataQuery) I.serialize [.name I.outputStream] [])]

/-- `DataQueryPdu.parse`, /repo/opendis/dis7.py:4102-4107. -/
def DataQueryPdu.parse : Method where
  params := [(I.inputStream, none)]
  property := false
  body :=
   [.expr (.super (some I.DataQueryPdu) I.parse [.name I.inputStream] []),
    .assign (.attr (.name I.self) I.requestID) (.method (.name I.inputStream) I.read_unsigned_int [] []),
    .assign (.attr (.name I.self) I.timeInterval) (.method (.name I.inputStream) I.read_unsigned_int [] []),
    .expr (.method (.attr (.name I.self) I._dataQuery) I.parse [.name I.inputStream] [])]

/-- `class DataQueryPdu`, /repo/opendis/dis7.py:4059-4107. -/
def DataQueryPdu : Class where
  base := some I.SimulationManagementFamilyPdu
  attrs := [(I.pduType, .int 18)]
  methods :=
   [(I.__init__, DataQueryPdu.__init__),
    (I.numberOfFixedDatumIDs, DataQueryPdu.numberOfFixedDatumIDs),
    (I.numberOfVariableDatumIDs, DataQueryPdu.numberOfVariableDatumIDs),
    (I.fixedDatumIDs, DataQueryPdu.fixedDatumIDs),
    (I.variableDatumIDs, DataQueryPdu.variableDatumIDs),
    (I.serialize, DataQueryPdu.serialize),
    (I.parse, DataQueryPdu.parse)]

/-- `LinearObjectStatePdu.__init__`, /repo/opendis/dis7.py:4119-4141. -/
def LinearObjectStatePdu.__init__ : Method where
  params := [(I.objectID, some (.none)), (I.referencedObjectID, some (.none)), (I.updateNumber, some (.int 0)),
   (I.forceID, some (.int 0)), (I.requesterID, some (.none)), (I.receivingID, some (.none)), (I.objectType,
   some (.none)), (I.linearSegmentParameters, some (.none))]
  property := false
  body :=
   [.expr (.super (some I.LinearObjectStatePdu) I.__init__ [] []),
    .assign (.attr (.name I.self) I.objectID) (.or (.name I.objectID) (.call I.EntityIdentifier [] [])),
    .assign (.attr (.name I.self) I.referencedObjectID) (.or (.name I.referencedObjectID) (.call I.EntityIdentifier [] [])),
    .assign (.attr (.name I.self) I.updateNumber) (.name I.updateNumber),
    .assign (.attr (.name I.self) I.forceID) (.name I.forceID),
    .assign (.attr (.name I.self) I.numberOfSegments) (.name I.numberOfSegments),
    .assign (.attr (.name I.self) I.requesterID) (.or (.name I.requesterID) (.call I.SimulationAddress [] [])),
    .assign (.attr (.name I.self) I.receivingID) (.or (.name I.receivingID) (.call I.SimulationAddress [] [])),
    .assign (.attr (.name I.self) I.objectType) (.or (.name I.objectType) (.call I.ObjectType [] [])),
    .assign (.attr (.name I.self) I.linearSegmentParameters) (.or (.name I.linearSegmentParameters) (.list []))]

/-- `LinearObjectStatePdu.numberOfSegments`, /repo/opendis/dis7.py:4144-4145. -/
def LinearObjectStatePdu.numberOfSegments : Method where
  params := []
  property := true
  body :=
   [.ret (.call I.len [.attr (.name I.self) I.linearSegmentParameters] [])]

/-- `LinearObjectStatePdu.serialize`, /repo/opendis/dis7.py:4147-4159. -/
def LinearObjectStatePdu.serialize : Method where
  params := [(I.outputStream, none)]
  property := false
  body :=
   [.expr (.super (some I.LinearObjectStatePdu) I.serialize [.name I.outputStream] []),
    .expr (.method (.attr (.name I.self) I.objectID) I.serialize [.name I.outputStream] []),
    .expr (.method (.attr (.name I.self) I.referencedObjectID) I.serialize [.name I.outputStream] []),
    .expr (.method (.name I.outputStream) I.write_unsigned_short [.attr (.name I.self) I.updateNumber] []),
    .expr (.method (.name I.outputStream) I.write_unsigned_byte [.attr (.name I.self) I.forceID] []),
    .expr (.method (.name I.outputStream) I.write_unsigned_byte [.attr (.name I.self) I.numberOfSegments] []),
    .expr (.method (.attr (.name I.self) I.requesterID) I.serialize [.name I.outputStream] []),
    .expr (.method (.attr (.name I.self) I.receivingID) I.serialize [.name I.outputStream] []),
    .expr (.method (.attr (.name I.self) I.objectType) I.serialize [.name I.outputStream] []),
    .for I.anObj (.attr (.name I.self) I.linearSegmentParameters)
      [.expr (.method (.name I.anObj) I.serialize [.name I.outputStream] [])]]

/-- `LinearObjectStatePdu.parse`, /repo/opendis/dis7.py:4161-4175. -/
def LinearObjectStatePdu.parse : Method where
  params := [(I.inputStream, none)]
  property := false
  body :=
   [.expr (.super (some I.LinearObjectStatePdu) I.parse [.name I.inputStream] []),
    .expr (.method (.attr (.name I.self) I.objectID) I.parse [.name I.inputStream] []),
    .expr (.method (.attr (.name I.self) I.referencedObjectID) I.parse [.name I.inputStream] []),
    .assign (.attr (.name I.self) I.updateNumber) (.method (.name I.inputStream) I.read_unsigned_short [] []),
    .assign (.attr (.name I.self) I.forceID) (.method (.name I.inputStream) I.read_unsigned_byte [] []),
    .assign (.name I.numberOfSegments) (.method (.name I.inputStream) I.read_unsigned_byte [] []),
    .expr (.method (.attr (.name I.self) I.requesterID) I.parse [.name I.inputStream] []),
    .expr (.method (.attr (.name I.self) I.receivingID) I.parse [.name I.inputStream] []),
    .expr (.method (.attr (.name I.self) I.objectType) I.parse [.name I.inputStream] []),
    .for I.idx (.call I.range [.int 0, .name I.numberOfSegments] [])
      [.assign (.name I.element) (.call I.LinearSegmentParameter [] []),
       .expr (.method (.name I.element) I.parse [.name I.inputStream] []),
       .expr (.method (.attr (.name I.self) I.linearSegmentParameters) I.append [.name I.element] [])]]

/-- `class LinearObjectStatePdu`, /repo/opendis/dis7.py:4110-4175. -/
def LinearObjectStatePdu : Class where
  base := some I.SyntheticEnvironmentFamilyPdu
  attrs := [(I.pduType, .int 44)]
  methods :=
   [(I.__init__, LinearObjectStatePdu.__init__),
    (I.numberOfSegments, LinearObjectStatePdu.numberOfSegments),
    (I.serialize, LinearObjectStatePdu.serialize),
    (I.parse, LinearObjectStatePdu.parse)]

/-- `CreateEntityPdu.__init__`, /repo/opendis/dis7.py:4185-4188. -/
def CreateEntityPdu.__init__ : Method where
  params := [(I.requestID, some (.int 0))]
  property := false
  body :=
   [.expr (.super (some I.CreateEntityPdu) I.__init__ [] []),
    .assign (.attr (.name I.self) I.requestID) (.name I.requestID)]

/-- `CreateEntityPdu.serialize`, /repo/opendis/dis7.py:4190-4193. -/
def CreateEntityPdu.serialize : Method where
  params := [(I.outputStream, none)]
  property := false
  body :=
   [.expr (.super (some I.CreateEntityPdu) I.serialize [.name I.outputStream] []),
    .expr (.method (.name I.outputStream) I.write_unsigned_int [.attr (.name I.self) I.requestID] [])]

/-- `CreateEntityPdu.parse`, /repo/opendis/dis7.py:4195-4198. -/
def CreateEntityPdu.parse : Method where
  params := [(I.inputStream, none)]
  property := false
  body :=
   [.expr (.super (some I.CreateEntityPdu) I.parse [.name I.inputStream] []),
    .assign (.attr (.name I.self) I.requestID) (.method (.name I.inputStream) I.read_unsigned_int [] [])]

/-- `class CreateEntityPdu`, /repo/opendis/dis7.py:4178-4198. -/
def CreateEntityPdu : Class where
  base := some I.SimulationManagementFamilyPdu
  attrs := [(I.pduType, .int 11)]
  methods :=
   [(I.__init__, CreateEntityPdu.__init__),
    (I.serialize, CreateEntityPdu.serialize),
    (I.parse, CreateEntityPdu.parse)]

/-- `RadioCommunicationsFamilyPdu.__init__`, /repo/opendis/dis7.py:4208-4209. -/
def RadioCommunicationsFamilyPdu.__init__ : Method where
  params := []
  property := false
  body :=
   [.expr (.super (some I.RadioCommunicationsFamilyPdu) I.__init__ [] [])]

/-- `RadioCommunicationsFamilyPdu.serialize`, /repo/opendis/dis7.py:4211-4213. -/
def RadioCommunicationsFamilyPdu.serialize : Method where
  params := [(I.outputStream, none)]
  property := false
  body :=
   [.expr (.super (some I.RadioCommunicationsFamilyPdu) I.serialize [.name I.outputStream] [])]

/-- `RadioCommunicationsFamilyPdu.parse`, /repo/opendis/dis7.py:4215-4217. -/
def RadioCommunicationsFamilyPdu.parse : Method where
  params := [(I.inputStream, none)]
  property := false
  body :=
   [.expr (.super (some I.RadioCommunicationsFamilyPdu) I.parse [.name I.inputStream] [])]

/-- `class RadioCommunicationsFamilyPdu`, /repo/opendis/dis7.py:4201-4217. -/
def RadioCommunicationsFamilyPdu : Class where
  base := some I.Pdu
  attrs := [(I.protocolFamily, .int 4)]
  methods :=
   [(I.__init__, RadioCommunicationsFamilyPdu.__init__),
    (I.serialize, RadioCommunicationsFamilyPdu.serialize),
    (I.parse, RadioCommunicationsFamilyPdu.parse)]

/-- `IntercomSignalPdu.__init__`, /repo/opendis/dis7.py:4227-4244. -/
def IntercomSignalPdu.__init__ : Method where
  params := [(I.entityID, some (.none)), (I.communicationsDeviceID, some (.int 0)), (I.encodingScheme, some (.int 0)),
   (I.tdlType, some (.int 0)), (I.sampleRate, some (.int 0)), (I.samples, some (.int 0)), (I.data, some
   (.none))]
  property := false
  body :=
   [.expr (.super (some I.IntercomSignalPdu) I.__init__ [] []),
    .assign (.attr (.name I.self) I.entityID) (.or (.name I.entityID) (.call I.EntityIdentifier [] [])),
    .assign (.attr (.name I.self) I.communicationsDeviceID) (.name I.communicationsDeviceID),
    .assign (.attr (.name I.self) I.encodingScheme) (.name I.encodingScheme),
    .assign (.attr (.name I.self) I.tdlType) (.name I.tdlType),
    .assign (.attr (.name I.self) I.sampleRate) (.name I.sampleRate),
    .assign (.attr (.name I.self) I.samples) (.name I.samples),
    .assign (.attr (.name I.self) I.data) (.or (.name I.data) (.list []))]

/-- `IntercomSignalPdu.dataLength`, /repo/opendis/dis7.py:4248-4250. -/
def IntercomSignalPdu.dataLength : Method where
  params := []
  property := true
  body :=
   [.ret (.bin .mul (.call I.len [.attr (.name I.self) I.data] []) (.int 8))]

/-- `IntercomSignalPdu.serialize`, /repo/opendis/dis7.py:4252-4263. -/
def IntercomSignalPdu.serialize : Method where
  params := [(I.outputStream, none)]
  property := false
  body :=
   [.expr (.super (some I.IntercomSignalPdu) I.serialize [.name I.outputStream] []),
    .expr (.method (.attr (.name I.self) I.entityID) I.serialize [.name I.outputStream] []),
    .expr (.method (.name I.outputStream) I.write_unsigned_short [.attr (.name I.self) I.communicationsDeviceID] []),
    .expr (.method (.name I.outputStream) I.write_unsigned_short [.attr (.name I.self) I.encodingScheme] []),
    .expr (.method (.name I.outputStream) I.write_unsigned_short [.attr (.name I.self) I.tdlType] []),
    .expr (.method (.name I.outputStream) I.write_unsigned_int [.attr (.name I.self) I.sampleRate] []),
    .expr (.method (.name I.outputStream) I.write_unsigned_short [.attr (.name I.self) I.dataLength] []),
    .expr (.method (.name I.outputStream) I.write_unsigned_short [.attr (.name I.self) I.samples] []),
    .for I.anObj (.attr (.name I.self) I.data)
      [.expr (.method (.name I.anObj) I.serialize [.name I.outputStream] [])]]

/-- `IntercomSignalPdu.parse`, /repo/opendis/dis7.py:4265-4280. -/
def IntercomSignalPdu.parse : Method where
  params := [(I.inputStream, none)]
  property := false
  body :=
   [.expr (.super (some I.IntercomSignalPdu) I.parse [.name I.inputStream] []),
    .expr (.method (.attr (.name I.self) I.entityID) I.parse [.name I.inputStream] []),
    .assign (.attr (.name I.self) I.communicationsDeviceID) (.method (.name I.inputStream) I.read_unsigned_short [] []),
    .assign (.attr (.name I.self) I.encodingScheme) (.method (.name I.inputStream) I.read_unsigned_short [] []),
    .assign (.attr (.name I.self) I.tdlType) (.method (.name I.inputStream) I.read_unsigned_short [] []),
    .assign (.attr (.name I.self) I.sampleRate) (.method (.name I.inputStream) I.read_unsigned_int [] []),
    .assign (.name I.dataLength) (.method (.name I.inputStream) I.read_unsigned_short [] []),
    .assign (.attr (.name I.self) I.samples) (.method (.name I.inputStream) I.read_unsigned_short [] []),
    .for I.idx (.call I.range [.int 0, .bin .floordiv (.name I.dataLength) (.int 8)] [])
      [.assign (.name I.element) (.call I.null [] []),
       .expr (.method (.name I.element) I.parse [.name I.inputStream] []),
       .expr (.method (.attr (.name I.self) I.data) I.append [.name I.element] [])]]

/-- `class IntercomSignalPdu`, /repo/opendis/dis7.py:4220-4280. -/
def IntercomSignalPdu : Class where
  base := some I.RadioCommunicationsFamilyPdu
  attrs := [(I.pduType, .int 31)]
  methods :=
   [(I.__init__, IntercomSignalPdu.__init__),
    (I.dataLength, IntercomSignalPdu.dataLength),
    (I.serialize, IntercomSignalPdu.serialize),
    (I.parse, IntercomSignalPdu.parse)]

/-- `RemoveEntityPdu.__init__`, /repo/opendis/dis7.py:4291-4295. -/
def RemoveEntityPdu.__init__ : Method where
  params := [(I.requestID, some (.int 0))]
  property := false
  body :=
   [.expr (.super (some I.RemoveEntityPdu) I.__init__ [] []),
    .assign (.attr (.name I.self) I.requestID) (.name I.requestID)]

/-- `RemoveEntityPdu.serialize`, /repo/opendis/dis7.py:4297-4300. -/
def RemoveEntityPdu.serialize : Method where
  params := [(I.outputStream, none)]
  property := false
  body :=
   [.expr (.super (some I.RemoveEntityPdu) I.serialize [.name I.outputStream] []),
    .expr (.method (.name I.outputStream) I.write_unsigned_int [.attr (.name I.self) I.requestID] [])]

/-- `RemoveEntityPdu.parse`, /repo/opendis/dis7.py:4302-4305. -/
def RemoveEntityPdu.parse : Method where
  params := [(I.inputStream, none)]
  property := false
  body :=
   [.expr (.super (some I.RemoveEntityPdu) I.parse [.name I.inputStream] []),
    .assign (.attr (.name I.self) I.requestID) (.method (.name I.inputStream) I.read_unsigned_int [] [])]

/-- `class RemoveEntityPdu`, /repo/opendis/dis7.py:4283-4305. -/
def RemoveEntityPdu : Class where
  base := some I.SimulationManagementFamilyPdu
  attrs := [(I.pduType, .int 12)]
  methods :=
   [(I.__init__, RemoveEntityPdu.__init__),
    (I.serialize, RemoveEntityPdu.serialize),
    (I.parse, RemoveEntityPdu.parse)]

/-- `ResupplyReceivedPdu.__init__`, /repo/opendis/dis7.py:4315-4327. -/
def ResupplyReceivedPdu.__init__ : Method where
  params := [(I.receivingEntityID, some (.none)), (I.supplyingEntityID, some (.none)), (I.supplies, some (.none))]
  property := false
  body :=
   [.expr (.super (some I.ResupplyReceivedPdu) I.__init__ [] []),
    .assign (.attr (.name I.self) I.receivingEntityID) (.or (.name I.receivingEntityID) (.call I.EntityIdentifier [] [])),
    .assign (.attr (.name I.self) I.supplyingEntityID) (.or (.name I.supplyingEntityID) (.call I.EntityIdentifier [] [])),
    .assign (.attr (.name I.self) I.padding1) (.int 0),
    .assign (.attr (.name I.self) I.padding2) (.int 0),
    .assign (.attr (.name I.self) I.supplies) (.or (.name I.supplies) (.list []))]

/-- `ResupplyReceivedPdu.numberOfSupplyTypes`, /repo/opendis/dis7.py:4330-4331. -/
def ResupplyReceivedPdu.numberOfSupplyTypes : Method where
  params := []
  property := true
  body :=
   [.ret (.call I.len [.attr (.name I.self) I.supplies] [])]

/-- `ResupplyReceivedPdu.serialize`, /repo/opendis/dis7.py:4333-4342. -/
def ResupplyReceivedPdu.serialize : Method where
  params := [(I.outputStream, none)]
  property := false
  body :=
   [.expr (.super (some I.ResupplyReceivedPdu) I.serialize [.name I.outputStream] []),
    .expr (.method (.attr (.name I.self) I.receivingEntityID) I.serialize [.name I.outputStream] []),
    .expr (.method (.attr (.name I.self) I.supplyingEntityID) I.serialize [.name I.outputStream] []),
    .expr (.method (.name I.outputStream) I.write_unsigned_byte [.attr (.name I.self) I.numberOfSupplyTypes] []),
    .expr (.method (.name I.outputStream) I.write_short [.attr (.name I.self) I.padding1] []),
    .expr (.method (.name I.outputStream) I.write_byte [.attr (.name I.self) I.padding2] []),
    .for I.anObj (.attr (.name I.self) I.supplies)
      [.expr (.method (.name I.anObj) I.serialize [.name I.outputStream] [])]]

/-- `ResupplyReceivedPdu.parse`, /repo/opendis/dis7.py:4344-4355. -/
def ResupplyReceivedPdu.parse : Method where
  params := [(I.inputStream, none)]
  property := false
  body :=
   [.expr (.super (some I.ResupplyReceivedPdu) I.parse [.name I.inputStream] []),
    .expr (.method (.attr (.name I.self) I.receivingEntityID) I.parse [.name I.inputStream] []),
    .expr (.method (.attr (.name I.self) I.supplyingEntityID) I.parse [.name I.inputStream] []),
    .assign (.name I.numberOfSupplyTypes) (.method (.name I.inputStream) I.read_unsigned_byte [] []),
    .assign (.attr (.name I.self) I.padding1) (.method (.name I.inputStream) I.read_short [] []),
    .assign (.attr (.name I.self) I.padding2) (.method (.name I.inputStream) I.read_byte [] []),
    .for I.idx (.call I.range [.int 0, .name I.numberOfSupplyTypes] [])
      [.assign (.name I.element) (.call I.null [] []),
       .expr (.method (.name I.element) I.parse [.name I.inputStream] []),
       .expr (.method (.attr (.name I.self) I.supplies) I.append [.name I.element] [])]]

/-- `class ResupplyReceivedPdu`, /repo/opendis/dis7.py:4308-4355. -/
def ResupplyReceivedPdu : Class where
  base := some I.LogisticsFamilyPdu
  attrs := [(I.pduType, .int 7)]
  methods :=
   [(I.__init__, ResupplyReceivedPdu.__init__),
    (I.numberOfSupplyTypes, ResupplyReceivedPdu.numberOfSupplyTypes),
    (I.serialize, ResupplyReceivedPdu.serialize),
    (I.parse, ResupplyReceivedPdu.parse)]

/-- `WarfareFamilyPdu.__init__`, /repo/opendis/dis7.py:4366-4373. -/
def WarfareFamilyPdu.__init__ : Method where
  params := [(I.firingEntityID, some (.none)), (I.targetEntityID, some (.none))]
  property := false
  body :=
   [.expr (.super (some I.WarfareFamilyPdu) I.__init__ [] []),
    .assign (.attr (.name I.self) I.firingEntityID) (.or (.name I.firingEntityID) (.call I.EntityIdentifier [] [])),
    .assign (.attr (.name I.self) I.targetEntityID) (.or (.name I.targetEntityID) (.call I.EntityIdentifier [] []))]

/-- `WarfareFamilyPdu.serialize`, /repo/opendis/dis7.py:4375-4379. -/
def WarfareFamilyPdu.serialize : Method where
  params := [(I.outputStream, none)]
  property := false
  body :=
   [.expr (.super (some I.WarfareFamilyPdu) I.serialize [.name I.outputStream] []),
    .expr (.method (.attr (.name I.self) I.firingEntityID) I.serialize [.name I.outputStream] []),
    .expr (.method (.attr (.name I.self) I.targetEntityID) I.serialize [.name I.outputStream] [])]

/-- `WarfareFamilyPdu.parse`, /repo/opendis/dis7.py:4381-4385. -/
def WarfareFamilyPdu.parse : Method where
  params := [(I.inputStream, none)]
  property := false
  body :=
   [.expr (.super (some I.WarfareFamilyPdu) I.parse [.name I.inputStream] []),
    .expr (.method (.attr (.name I.self) I.firingEntityID) I.parse [.name I.inputStream] []),
    .expr (.method (.attr (.name I.self) I.targetEntityID) I.parse [.name I.inputStream] [])]

/-- `class WarfareFamilyPdu`, /repo/opendis/dis7.py:4358-4385. -/
def WarfareFamilyPdu : Class where
  base := some I.Pdu
  attrs := [(I.protocolFamily, .int 2)]
  methods :=
   [(I.__init__, WarfareFamilyPdu.__init__),
    (I.serialize, WarfareFamilyPdu.serialize),
    (I.parse, WarfareFamilyPdu.parse)]

/-- `CollisionElasticPdu.__init__`, /repo/opendis/dis7.py:4396-4436. -/
def CollisionElasticPdu.__init__ : Method where
  params := [(I.issuingEntityID, some (.none)), (I.collidingEntityID, some (.none)), (I.collisionEventID, some (.none)),
   (I.contactVelocity, some (.none)), (I.mass, some (.float 0x0000000000000000)), (I.locationOfImpact, some
   (.none)), (I.collisionIntermediateResultXX, some (.float 0x0000000000000000)),
   (I.collisionIntermediateResultXY, some (.float 0x0000000000000000)), (I.collisionIntermediateResultXZ, some
   (.float 0x0000000000000000)), (I.collisionIntermediateResultYY, some (.float 0x0000000000000000)),
   (I.collisionIntermediateResultYZ, some (.float 0x0000000000000000)), (I.collisionIntermediateResultZZ, some
   (.float 0x0000000000000000)), (I.unitSurfaceNormal, some (.none)), (I.coefficientOfRestitution, some
   (.float 0x0000000000000000))]
  property := false
  body :=
   [.expr (.super (some I.CollisionElasticPdu) I.__init__ [] []),
    .assign (.attr (.name I.self) I.issuingEntityID) (.or (.name I.issuingEntityID) (.call I.EntityIdentifier [] [])),
    .assign (.attr (.name I.self) I.collidingEntityID) (.or (.name I.collidingEntityID) (.call I.EntityIdentifier [] [])),
    .assign (.attr (.name I.self) I.collisionEventID) (.or (.name I.collisionEventID) (.call I.EventIdentifier [] [])),
    .assign (.attr (.name I.self) I.pad) (.int 0),
    .assign (.attr (.name I.self) I.contactVelocity) (.or (.name I.contactVelocity) (.call I.Vector3Float [] [])),
    .assign (.attr (.name I.self) I.mass) (.name I.mass),
    .assign (.attr (.name I.self) I.locationOfImpact) (.or (.name I.locationOfImpact) (.call I.Vector3Float [] [])),
    .assign (.attr (.name I.self) I.collisionIntermediateResultXX) (.name I.collisionIntermediateResultXX),
    .assign (.attr (.name I.self) I.collisionIntermediateResultXY) (.name I.collisionIntermediateResultXY),
    .assign (.attr (.name I.self) I.collisionIntermediateResultXZ) (.name I.collisionIntermediateResultXZ),
    .assign (.attr (.name I.self) I.collisionIntermediateResultYY) (.name I.collisionIntermediateResultYY),
    .assign (.attr (.name I.self) I.collisionIntermediateResultYZ) (.name I.collisionIntermediateResultYZ),
    .assign (.attr (.name I.self) I.collisionIntermediateResultZZ) (.name I.collisionIntermediateResultZZ),
    .assign (.attr (.name I.self) I.unitSurfaceNormal) (.or (.name I.unitSurfaceNormal) (.call I.Vector3Float [] [])),
    .assign (.attr (.name I.self) I.coefficientOfRestitution) (.name I.coefficientOfRestitution)]

/-- `CollisionElasticPdu.serialize`, /repo/opendis/dis7.py:4438-4455. -/
def CollisionElasticPdu.serialize : Method where
  params := [(I.outputStream, none)]
  property := false
  body :=
   [.expr (.super (some I.CollisionElasticPdu) I.serialize [.name I.outputStream] []),
    .expr (.method (.attr (.name I.self) I.issuingEntityID) I.serialize [.name I.outputStream] []),
    .expr (.method (.attr (.name I.self) I.collidingEntityID) I.serialize [.name I.outputStream] []),
    .expr (.method (.attr (.name I.self) I.collisionEventID) I.serialize [.name I.outputStream] []),
    .expr (.method (.name I.outputStream) I.write_short [.attr (.name I.self) I.pad] []),
    .expr (.method (.attr (.name I.self) I.contactVelocity) I.serialize [.name I.outputStream] []),
    .expr (.method (.name I.outputStream) I.write_float [.attr (.name I.self) I.mass] []),
    .expr (.method (.attr (.name I.self) I.locationOfImpact) I.serialize [.name I.outputStream] []),
    .expr (.method (.name I.outputStream) I.write_float [.attr (.name I.self) I.collisionIntermediateResultXX] []),
    .expr (.method (.name I.outputStream) I.write_float [.attr (.name I.self) I.collisionIntermediateResultXY] []),
    .expr (.method (.name I.outputStream) I.write_float [.attr (.name I.self) I.collisionIntermediateResultXZ] []),
    .expr (.method (.name I.outputStream) I.write_float [.attr (.name I.self) I.collisionIntermediateResultYY] []),
    .expr (.method (.name I.outputStream) I.write_float [.attr (.name I.self) I.collisionIntermediateResultYZ] []),
    .expr (.method (.name I.outputStream) I.write_float [.attr (.name I.self) I.collisionIntermediateResultZZ] []),
    .expr (.method (.attr (.name I.self) I.unitSurfaceNormal) I.serialize [.name I.outputStream] []),
    .expr (.method (.name I.outputStream) I.write_float [.attr (.name I.self) I.coefficientOfRestitution] [])]

/-- `CollisionElasticPdu.parse`, /repo/opendis/dis7.py:4457-4474. -/
def CollisionElasticPdu.parse : Method where
  params := [(I.inputStream, none)]
  property := false
  body :=
   [.expr (.super (some I.CollisionElasticPdu) I.parse [.name I.inputStream] []),
    .expr (.method (.attr (.name I.self) I.issuingEntityID) I.parse [.name I.inputStream] []),
    .expr (.method (.attr (.name I.self) I.collidingEntityID) I.parse [.name I.inputStream] []),
    .expr (.method (.attr (.name I.self) I.collisionEventID) I.parse [.name I.inputStream] []),
    .assign (.attr (.name I.self) I.pad) (.method (.name I.inputStream) I.read_short [] []),
    .expr (.method (.attr (.name I.self) I.contactVelocity) I.parse [.name I.inputStream] []),
    .assign (.attr (.name I.self) I.mass) (.method (.name I.inputStream) I.read_float [] []),
    .expr (.method (.attr (.name I.self) I.locationOfImpact) I.parse [.name I.inputStream] []),
    .assign (.attr (.name I.self) I.collisionIntermediateResultXX) (.method (.name I.inputStream) I.read_float [] []),
    .assign (.attr (.name I.self) I.collisionIntermediateResultXY) (.method (.name I.inputStream) I.read_float [] []),
    .assign (.attr (.name I.self) I.collisionIntermediateResultXZ) (.method (.name I.inputStream) I.read_float [] []),
    .assign (.attr (.name I.self) I.collisionIntermediateResultYY) (.method (.name I.inputStream) I.read_float [] []),
    .assign (.attr (.name I.self) I.collisionIntermediateResultYZ) (.method (.name I.inputStream) I.read_float [] []),
    .assign (.attr (.name I.self) I.collisionIntermediateResultZZ) (.method (.name I.inputStream) I.read_float [] []),
    .expr (.method (.attr (.name I.self) I.unitSurfaceNormal) I.parse [.name I.inputStream] []),
    .assign (.attr (.name I.self) I.coefficientOfRestitution) (.method (.name I.inputStream) I.read_float [] [])]

/-- `class CollisionElasticPdu`, /repo/opendis/dis7.py:4388-4474. -/
def CollisionElasticPdu : Class where
  base := some I.EntityInformationFamilyPdu
  attrs := [(I.pduType, .int 66)]
  methods :=
   [(I.__init__, CollisionElasticPdu.__init__),
    (I.serialize, CollisionElasticPdu.serialize),
    (I.parse, CollisionElasticPdu.parse)]

/-- `ActionRequestPdu.__init__`, /repo/opendis/dis7.py:4485-4497. -/
def ActionRequestPdu.__init__ : Method where
  params := [(I.requestID, some (.int 0)), (I.actionID, some (.int 0)), (I.fixedDatumRecords, some (.none)),
   (I.variableDatumRecords, some (.none))]
  property := false
  body :=
   [.expr (.super (some I.ActionRequestPdu) I.__init__ [] []),
    .assign (.attr (.name I.self) I.requestID) (.name I.requestID),
    .assign (.attr (.name I.self) I.actionID) (.name I.actionID),
    .assign (.attr (.name I.self) I._datums) (.call I.DatumSpecification [.or (.name I.fixedDatumRecords) (.list []), .or (.name I.variableDatumRecords) (.list [])] [])]

/-- `ActionRequestPdu.numberOfFixedDatumRecords`, /repo/opendis/dis7.py:4500-4501. -/
def ActionRequestPdu.numberOfFixedDatumRecords : Method where
  params := []
  property := true
  body :=
   [.ret (.attr (.attr (.name I.self) I._datums) I.numberOfFixedDatumRecords)]

/-- `ActionRequestPdu.numberOfVariableDatumRecords`, /repo/opendis/dis7.py:4504-4505. -/
def ActionRequestPdu.numberOfVariableDatumRecords : Method where
  params := []
  property := true
  body :=
   [.ret (.attr (.attr (.name I.self) I._datums) I.numberOfVariableDatumRecords)]

/-- `ActionRequestPdu.fixedDatumRecords`, /repo/opendis/dis7.py:4508-4509. -/
def ActionRequestPdu.fixedDatumRecords : Method where
  params := []
  property := true
  body :=
   [.ret (.attr (.attr (.name I.self) I._datums) I.fixedDatumRecords)]

/-- `ActionRequestPdu.variableDatumRecords`, /repo/opendis/dis7.py:4512-4513. -/
def ActionRequestPdu.variableDatumRecords : Method where
  params := []
  property := true
  body :=
   [.ret (.attr (.attr (.name I.self) I._datums) I.variableDatumRecords)]

/-- `ActionRequestPdu.serialize`, /repo/opendis/dis7.py:4515-4520. -/
def ActionRequestPdu.serialize : Method where
  params := [(I.outputStream, none)]
  property := false
  body :=
   [.expr (.super (some I.ActionRequestPdu) I.serialize [.name I.outputStream] []),
    .expr (.method (.name I.outputStream) I.write_unsigned_int [.attr (.name I.self) I.requestID] []),
    .expr (.method (.name I.outputStream) I.write_unsigned_int [.attr (.name I.self) I.actionID] []),
    .expr (.method (.attr (.name I.self) I._datums) I.serialize [.name I.outputStream] [])]

/-- `ActionRequestPdu.parse`, /repo/opendis/dis7.py:4522-4527. -/
def ActionRequestPdu.parse : Method where
  params := [(I.inputStream, none)]
  property := false
  body :=
   [.expr (.super (some I.ActionRequestPdu) I.parse [.name I.inputStream] []),
    .assign (.attr (.name I.self) I.requestID) (.method (.name I.inputStream) I.read_unsigned_int [] []),
    .assign (.attr (.name I.self) I.actionID) (.method (.name I.inputStream) I.read_unsigned_int [] []),
    .expr (.method (.attr (.name I.self) I._datums) I.parse [.name I.inputStream] [])]

/-- `class ActionRequestPdu`, /repo/opendis/dis7.py:4477-4527. -/
def ActionRequestPdu : Class where
  base := some I.SimulationManagementFamilyPdu
  attrs := [(I.pduType, .int 16)]
  methods :=
   [(I.__init__, ActionRequestPdu.__init__),
    (I.numberOfFixedDatumRecords, ActionRequestPdu.numberOfFixedDatumRecords),
    (I.numberOfVariableDatumRecords, ActionRequestPdu.numberOfVariableDatumRecords),
    (I.fixedDatumRecords, ActionRequestPdu.fixedDatumRecords),
    (I.variableDatumRecords, ActionRequestPdu.variableDatumRecords),
    (I.serialize, ActionRequestPdu.serialize),
    (I.parse, ActionRequestPdu.parse)]

/-- `AcknowledgePdu.__init__`, /repo/opendis/dis7.py:4538-4548. -/
def AcknowledgePdu.__init__ : Method where
  params := [(I.acknowledgeFlag, some (.int 0)), (I.responseFlag, some (.int 0)), (I.requestID, some (.int 0))]
  property := false
  body :=
   [.expr (.super (some I.AcknowledgePdu) I.__init__ [] []),
    .assign (.attr (.name I.self) I.acknowledgeFlag) (.name I.acknowledgeFlag),
    .assign (.attr (.name I.self) I.responseFlag) (.name I.responseFlag),
    .assign (.attr (.name I.self) I.requestID) (.name I.requestID)]

/-- `AcknowledgePdu.serialize`, /repo/opendis/dis7.py:4550-4555. -/
def AcknowledgePdu.serialize : Method where
  params := [(I.outputStream, none)]
  property := false
  body :=
   [.expr (.super (some I.AcknowledgePdu) I.serialize [.name I.outputStream] []),
    .expr (.method (.name I.outputStream) I.write_unsigned_short [.attr (.name I.self) I.acknowledgeFlag] []),
    .expr (.method (.name I.outputStream) I.write_unsigned_short [.attr (.name I.self) I.responseFlag] []),
    .expr (.method (.name I.outputStream) I.write_unsigned_int [.attr (.name I.self) I.requestID] [])]

/-- `AcknowledgePdu.parse`, /repo/opendis/dis7.py:4557-4562. -/
def AcknowledgePdu.parse : Method where
  params := [(I.inputStream, none)]
  property := false
  body :=
   [.expr (.super (some I.AcknowledgePdu) I.parse [.name I.inputStream] []),
    .assign (.attr (.name I.self) I.acknowledgeFlag) (.method (.name I.inputStream) I.read_unsigned_short [] []),
    .assign (.attr (.name I.self) I.responseFlag) (.method (.name I.inputStream) I.read_unsigned_short [] []),
    .assign (.attr (.name I.self) I.requestID) (.method (.name I.inputStream) I.read_unsigned_int [] [])]

/-- `class AcknowledgePdu`, /repo/opendis/dis7.py:4530-4562. -/
def AcknowledgePdu : Class where
  base := some I.SimulationManagementFamilyPdu
  attrs := [(I.pduType, .int 15)]
  methods :=
   [(I.__init__, AcknowledgePdu.__init__),
    (I.serialize, AcknowledgePdu.serialize),
    (I.parse, AcknowledgePdu.parse)]

/-- `DistributedEmissionsFamilyPdu.__init__`, /repo/opendis/dis7.py:4572-4573. -/
def DistributedEmissionsFamilyPdu.__init__ : Method where
  params := []
  property := false
  body :=
   [.expr (.super (some I.DistributedEmissionsFamilyPdu) I.__init__ [] [])]

/-- `DistributedEmissionsFamilyPdu.serialize`, /repo/opendis/dis7.py:4575-4577. -/
def DistributedEmissionsFamilyPdu.serialize : Method where
  params := [(I.outputStream, none)]
  property := false
  body :=
   [.expr (.super (some I.DistributedEmissionsFamilyPdu) I.serialize [.name I.outputStream] [])]

/-- `DistributedEmissionsFamilyPdu.parse`, /repo/opendis/dis7.py:4579-4581. -/
def DistributedEmissionsFamilyPdu.parse : Method where
  params := [(I.inputStream, none)]
  property := false
  body :=
   [.expr (.super (some I.DistributedEmissionsFamilyPdu) I.parse [.name I.inputStream] [])]

/-- `class DistributedEmissionsFamilyPdu`, /repo/opendis/dis7.py:4565-4581. -/
def DistributedEmissionsFamilyPdu : Class where
  base := some I.Pdu
  attrs := [(I.protocolFamily, .int 6)]
  methods :=
   [(I.__init__, DistributedEmissionsFamilyPdu.__init__),
    (I.serialize, DistributedEmissionsFamilyPdu.serialize),
    (I.parse, DistributedEmissionsFamilyPdu.parse)]

/-- `SimulationManagementWithReliabilityFamilyPdu.__init__`, /repo/opendis/dis7.py:4591-4598. -/
def SimulationManagementWithReliabilityFamilyPdu.__init__ : Method where
  params := [(I.originatingEntityID, some (.none)), (I.receivingEntityID, some (.none))]
  property := false
  body :=
   [.expr (.super (some I.SimulationManagementWithReliabilityFamilyPdu) I.__init__ [] []),
    .assign (.attr (.name I.self) I.originatingEntityID) (.or (.name I.originatingEntityID) (.call I.EntityIdentifier [] [])),
    .assign (.attr (.name I.self) I.receivingEntityID) (.or (.name I.receivingEntityID) (.call I.EntityIdentifier [] []))]

/-- `SimulationManagementWithReliabilityFamilyPdu.serialize`, /repo/opendis/dis7.py:4600-4604. -/
def SimulationManagementWithReliabilityFamilyPdu.serialize : Method where
  params := [(I.outputStream, none)]
  property := false
  body :=
   [.expr (.super (some I.SimulationManagementWithReliabilityFamilyPdu) I.serialize [.name I.outputStream] []),
    .expr (.method (.attr (.name I.self) I.originatingEntityID) I.serialize [.name I.outputStream] []),
    .expr (.method (.attr (.name I.self) I.receivingEntityID) I.serialize [.name I.outputStream] [])]

/-- `SimulationManagementWithReliabilityFamilyPdu.parse`, /repo/opendis/dis7.py:4606-4610. -/
def SimulationManagementWithReliabilityFamilyPdu.parse : Method where
  params := [(I.inputStream, none)]
  property := false
  body :=
   [.expr (.super (some I.SimulationManagementWithReliabilityFamilyPdu) I.parse [.name I.inputStream] []),
    .expr (.method (.attr (.name I.self) I.originatingEntityID) I.parse [.name I.inputStream] []),
    .expr (.method (.attr (.name I.self) I.receivingEntityID) I.parse [.name I.inputStream] [])]

/-- `class SimulationManagementWithReliabilityFamilyPdu`, /repo/opendis/dis7.py:4584-4610. -/
def SimulationManagementWithReliabilityFamilyPdu : Class where
  base := some I.Pdu
  attrs := [(I.protocolFamily, .int 10)]
  methods :=
   [(I.__init__, SimulationManagementWithReliabilityFamilyPdu.__init__),
    (I.serialize, SimulationManagementWithReliabilityFamilyPdu.serialize),
    (I.parse, SimulationManagementWithReliabilityFamilyPdu.parse)]

/-- `ActionRequestReliablePdu.__init__`, /repo/opendis/dis7.py:4621-4637. -/
def ActionRequestReliablePdu.__init__ : Method where
  params := [(I.requiredReliabilityService, some (.int 0)), (I.requestID, some (.int 0)), (I.actionID, some (.int 0)),
   (I.fixedDatumRecords, some (.none)), (I.variableDatumRecords, some (.none))]
  property := false
  body :=
   [.expr (.super (some I.ActionRequestReliablePdu) I.__init__ [] []),
    .assign (.attr (.name I.self) I.requiredReliabilityService) (.name I.requiredReliabilityService),
    .assign (.attr (.name I.self) I.pad1) (.int 0),
    .assign (.attr (.name I.self) I.pad2) (.int 0),
    .assign (.attr (.name I.self) I.requestID) (.name I.requestID),
    .assign (.attr (.name I.self) I.actionID) (.name I.actionID),
    .assign (.attr (.name I.self) I.pad3) (.int 0),
    .assign (.attr (.name I.self) I._datums) (.call I.DatumSpecification [.or (.name I.fixedDatumRecords) (.list []), .or (.name I.variableDatumRecords) (.list [])] [])]

/-- `ActionRequestReliablePdu.numberOfFixedDatumRecords`, /repo/opendis/dis7.py:4640-4641. -/
def ActionRequestReliablePdu.numberOfFixedDatumRecords : Method where
  params := []
  property := true
  body :=
   [.ret (.attr (.attr (.name I.self) I._datums) I.numberOfFixedDatumRecords)]

/-- `ActionRequestReliablePdu.numberOfVariableDatumRecords`, /repo/opendis/dis7.py:4644-4645. -/
def ActionRequestReliablePdu.numberOfVariableDatumRecords : Method where
  params := []
  property := true
  body :=
   [.ret (.attr (.attr (.name I.self) I._datums) I.numberOfVariableDatumRecords)]

/-- `ActionRequestReliablePdu.fixedDatumRecords`, /repo/opendis/dis7.py:4648-4649. -/
def ActionRequestReliablePdu.fixedDatumRecords : Method where
  params := []
  property := true
  body :=
   [.ret (.attr (.attr (.name I.self) I._datums) I.fixedDatumRecords)]

/-- `ActionRequestReliablePdu.variableDatumRecords`, /repo/opendis/dis7.py:4652-4653. -/
def ActionRequestReliablePdu.variableDatumRecords : Method where
  params := []
  property := true
  body :=
   [.ret (.attr (.attr (.name I.self) I._datums) I.variableDatumRecords)]

/-- `ActionRequestReliablePdu.serialize`, /repo/opendis/dis7.py:4655-4664. -/
def ActionRequestReliablePdu.serialize : Method where
  params := [(I.outputStream, none)]
  property := false
  body :=
   [.expr (.super (some I.ActionRequestReliablePdu) I.serialize [.name I.outputStream] []),
    .expr (.method (.name I.outputStream) I.write_unsigned_byte [.attr (.name I.self) I.requiredReliabilityService] []),
    .expr (.method (.name I.outputStream) I.write_unsigned_short [.attr (.name I.self) I.pad1] []),
    .expr (.method (.name I.outputStream) I.write_unsigned_byte [.attr (.name I.self) I.pad2] []),
    .expr (.method (.name I.outputStream) I.write_unsigned_int [.attr (.name I.self) I.requestID] []),
    .expr (.method (.name I.outputStream) I.write_unsigned_int [.attr (.name I.self) I.actionID] []),
    .expr (.method (.name I.outputStream) I.write_int [.attr (.name I.self) I.pad3] []),
    .expr (.method (.attr (.name I.self) I._datums) I.serialize [.name I.outputStream] [])]

/-- `ActionRequestReliablePdu.parse`, /repo/opendis/dis7.py:4666-4675. -/
def ActionRequestReliablePdu.parse : Method where
  params := [(I.inputStream, none)]
  property := false
  body :=
   [.expr (.super (some I.ActionRequestReliablePdu) I.parse [.name I.inputStream] []),
    .assign (.attr (.name I.self) I.requiredReliabilityService) (.method (.name I.inputStream) I.read_unsigned_byte [] []),
    .assign (.attr (.name I.self) I.pad1) (.method (.name I.inputStream) I.read_unsigned_short [] []),
    .assign (.attr (.name I.self) I.pad2) (.method (.name I.inputStream) I.read_unsigned_byte [] []),
    .assign (.attr (.name I.self) I.requestID) (.method (.name I.inputStream) I.read_unsigned_int [] []),
    .assign (.attr (.name I.self) I.actionID) (.method (.name I.inputStream) I.read_unsigned_int [] []),
    .assign (.attr (.name I.self) I.pad3) (.method (.name I.inputStream) I.read_int [] []),
    .expr (.method (.attr (.name I.self) I._datums) I.parse [.name I.inputStream] [])]

/-- `class ActionRequestReliablePdu`, /repo/opendis/dis7.py:4613-4675. -/
def ActionRequestReliablePdu : Class where
  base := some I.SimulationManagementWithReliabilityFamilyPdu
  attrs := [(I.pduType, .int 56)]
  methods :=
   [(I.__init__, ActionRequestReliablePdu.__init__),
    (I.numberOfFixedDatumRecords, ActionRequestReliablePdu.numberOfFixedDatumRecords),
    (I.numberOfVariableDatumRecords, ActionRequestReliablePdu.numberOfVariableDatumRecords),
    (I.fixedDatumRecords, ActionRequestReliablePdu.fixedDatumRecords),
    (I.variableDatumRecords, ActionRequestReliablePdu.variableDatumRecords),
    (I.serialize, ActionRequestReliablePdu.serialize),
    (I.parse, ActionRequestReliablePdu.parse)]

/-- `DesignatorPdu.__init__`, /repo/opendis/dis7.py:4685-4721. -/
def DesignatorPdu.__init__ : Method where
  params := [(I.designatingEntityID, some (.none)), (I.codeName, some (.int 0)), (I.designatedEntityID, some (.none)),
   (I.designatorCode, some (.int 0)), (I.designatorPower, some (.float 0x0000000000000000)),
   (I.designatorWavelength, some (.float 0x0000000000000000)), (I.designatorSpotWrtDesignated, some (.none)),
   (I.designatorSpotLocation, some (.none)), (I.deadReckoningAlgorithm, some (.int 0)),
   (I.entityLinearAcceleration, some (.none))]
  property := false
  body :=
   [.expr (.super (some I.DesignatorPdu) I.__init__ [] []),
    .assign (.attr (.name I.self) I.designatingEntityID) (.or (.name I.designatingEntityID) (.call I.EntityIdentifier [] [])),
    .assign (.attr (.name I.self) I.codeName) (.name I.codeName),
    .assign (.attr (.name I.self) I.designatedEntityID) (.or (.name I.designatedEntityID) (.call I.EntityIdentifier [] [])),
    .assign (.attr (.name I.self) I.designatorCode) (.name I.designatorCode),
    .assign (.attr (.name I.self) I.designatorPower) (.name I.designatorPower),
    .assign (.attr (.name I.self) I.designatorWavelength) (.name I.designatorWavelength),
    .assign (.attr (.name I.self) I.designatorSpotWrtDesignated) (.or (.name I.designatorSpotWrtDesignated) (.call I.Vector3Float [] [])),
    .assign (.attr (.name I.self) I.designatorSpotLocation) (.or (.name I.designatorSpotLocation) (.call I.WorldCoordinates [] [])),
    .assign (.attr (.name I.self) I.deadReckoningAlgorithm) (.name I.deadReckoningAlgorithm),
    .assign (.attr (.name I.self) I.padding1) (.int 0),
    .assign (.attr (.name I.self) I.padding2) (.int 0),
    .assign (.attr (.name I.self) I.entityLinearAcceleration) (.or (.name I.entityLinearAcceleration) (.call I.Vector3Float [] []))]

/-- `DesignatorPdu.serialize`, /repo/opendis/dis7.py:4723-4737. -/
def DesignatorPdu.serialize : Method where
  params := [(I.outputStream, none)]
  property := false
  body :=
   [.expr (.super (some I.DesignatorPdu) I.serialize [.name I.outputStream] []),
    .expr (.method (.attr (.name I.self) I.designatingEntityID) I.serialize [.name I.outputStream] []),
    .expr (.method (.name I.outputStream) I.write_unsigned_short [.attr (.name I.self) I.codeName] []),
    .expr (.method (.attr (.name I.self) I.designatedEntityID) I.serialize [.name I.outputStream] []),
    .expr (.method (.name I.outputStream) I.write_unsigned_short [.attr (.name I.self) I.designatorCode] []),
    .expr (.method (.name I.outputStream) I.write_float [.attr (.name I.self) I.designatorPower] []),
    .expr (.method (.name I.outputStream) I.write_float [.attr (.name I.self) I.designatorWavelength] []),
    .expr (.method (.attr (.name I.self) I.designatorSpotWrtDesignated) I.serialize [.name I.outputStream] []),
    .expr (.method (.attr (.name I.self) I.designatorSpotLocation) I.serialize [.name I.outputStream] []),
    .expr (.method (.name I.outputStream) I.write_byte [.attr (.name I.self) I.deadReckoningAlgorithm] []),
    .expr (.method (.name I.outputStream) I.write_unsigned_short [.attr (.name I.self) I.padding1] []),
    .expr (.method (.name I.outputStream) I.write_byte [.attr (.name I.self) I.padding2] []),
    .expr (.method (.attr (.name I.self) I.entityLinearAcceleration) I.serialize [.name I.outputStream] [])]

/-- `DesignatorPdu.parse`, /repo/opendis/dis7.py:4739-4753. -/
def DesignatorPdu.parse : Method where
  params := [(I.inputStream, none)]
  property := false
  body :=
   [.expr (.super (some I.DesignatorPdu) I.parse [.name I.inputStream] []),
    .expr (.method (.attr (.name I.self) I.designatingEntityID) I.parse [.name I.inputStream] []),
    .assign (.attr (.name I.self) I.codeName) (.method (.name I.inputStream) I.read_unsigned_short [] []),
    .expr (.method (.attr (.name I.self) I.designatedEntityID) I.parse [.name I.inputStream] []),
    .assign (.attr (.name I.self) I.designatorCode) (.method (.name I.inputStream) I.read_unsigned_short [] []),
    .assign (.attr (.name I.self) I.designatorPower) (.method (.name I.inputStream) I.read_float [] []),
    .assign (.attr (.name I.self) I.designatorWavelength) (.method (.name I.inputStream) I.read_float [] []),
    .expr (.method (.attr (.name I.self) I.designatorSpotWrtDesignated) I.parse [.name I.inputStream] []),
    .expr (.method (.attr (.name I.self) I.designatorSpotLocation) I.parse [.name I.inputStream] []),
    .assign (.attr (.name I.self) I.deadReckoningAlgorithm) (.method (.name I.inputStream) I.read_byte [] []),
    .assign (.attr (.name I.self) I.padding1) (.method (.name I.inputStream) I.read_unsigned_short [] []),
    .assign (.attr (.name I.self) I.padding2) (.method (.name I.inputStream) I.read_byte [] []),
    .expr (.method (.attr (.name I.self) I.entityLinearAcceleration) I.parse [.name I.inputStream] [])]

/-- `class DesignatorPdu`, /repo/opendis/dis7.py:4678-4753. -/
def DesignatorPdu : Class where
  base := some I.DistributedEmissionsFamilyPdu
  attrs := [(I.pduType, .int 24)]
  methods :=
   [(I.__init__, DesignatorPdu.__init__),
    (I.serialize, DesignatorPdu.serialize),
    (I.parse, DesignatorPdu.parse)]

/-- `StopFreezePdu.__init__`, /repo/opendis/dis7.py:4763-4777. -/
def StopFreezePdu.__init__ : Method where
  params := [(I.realWorldTime, some (.none)), (I.reason, some (.int 0)), (I.frozenBehavior, some (.int 0)), (I.requestID,
   some (.int 0))]
  property := false
  body :=
   [.expr (.super (some I.StopFreezePdu) I.__init__ [] []),
    .assign (.attr (.name I.self) I.realWorldTime) (.or (.name I.realWorldTime) (.call I.ClockTime [] [])),
    .assign (.attr (.name I.self) I.reason) (.name I.reason),
    .assign (.attr (.name I.self) I.frozenBehavior) (.name I.frozenBehavior),
    .assign (.attr (.name I.self) I.padding1) (.int 0),
    .assign (.attr (.name I.self) I.requestID) (.name I.requestID)]

/-- `StopFreezePdu.serialize`, /repo/opendis/dis7.py:4779-4786. -/
def StopFreezePdu.serialize : Method where
  params := [(I.outputStream, none)]
  property := false
  body :=
   [.expr (.super (some I.StopFreezePdu) I.serialize [.name I.outputStream] []),
    .expr (.method (.attr (.name I.self) I.realWorldTime) I.serialize [.name I.outputStream] []),
    .expr (.method (.name I.outputStream) I.write_unsigned_byte [.attr (.name I.self) I.reason] []),
    .expr (.method (.name I.outputStream) I.write_unsigned_byte [.attr (.name I.self) I.frozenBehavior] []),
    .expr (.method (.name I.outputStream) I.write_short [.attr (.name I.self) I.padding1] []),
    .expr (.method (.name I.outputStream) I.write_unsigned_int [.attr (.name I.self) I.requestID] [])]

/-- `StopFreezePdu.parse`, /repo/opendis/dis7.py:4788-4795. -/
def StopFreezePdu.parse : Method where
  params := [(I.inputStream, none)]
  property := false
  body :=
   [.expr (.super (some I.StopFreezePdu) I.parse [.name I.inputStream] []),
    .expr (.method (.attr (.name I.self) I.realWorldTime) I.parse [.name I.inputStream] []),
    .assign (.attr (.name I.self) I.reason) (.method (.name I.inputStream) I.read_unsigned_byte [] []),
    .assign (.attr (.name I.self) I.frozenBehavior) (.method (.name I.inputStream) I.read_unsigned_byte [] []),
    .assign (.attr (.name I.self) I.padding1) (.method (.name I.inputStream) I.read_short [] []),
    .assign (.attr (.name I.self) I.requestID) (.method (.name I.inputStream) I.read_unsigned_int [] [])]

/-- `class StopFreezePdu`, /repo/opendis/dis7.py:4756-4795. -/
def StopFreezePdu : Class where
  base := some I.SimulationManagementFamilyPdu
  attrs := [(I.pduType, .int 14)]
  methods :=
   [(I.__init__, StopFreezePdu.__init__),
    (I.serialize, StopFreezePdu.serialize),
    (I.parse, StopFreezePdu.parse)]

/-- `EntityStatePdu.__init__`, /repo/opendis/dis7.py:4805-4842. -/
def EntityStatePdu.__init__ : Method where
  params := [(I.entityID, some (.none)), (I.forceId, some (.int 0)), (I.entityType, some (.none)),
   (I.alternativeEntityType, some (.none)), (I.entityLinearVelocity, some (.none)), (I.entityLocation, some
   (.none)), (I.entityOrientation, some (.none)), (I.entityAppearance, some (.int 0)),
   (I.deadReckoningParameters, some (.none)), (I.marking, some (.none)), (I.capabilities, some (.int 0)),
   (I.variableParameters, some (.none))]
  property := false
  body :=
   [.expr (.super (some I.EntityStatePdu) I.__init__ [] []),
    .assign (.attr (.name I.self) I.entityID) (.or (.name I.entityID) (.call I.EntityIdentifier [] [])),
    .assign (.attr (.name I.self) I.forceId) (.name I.forceId),
    .assign (.attr (.name I.self) I.entityType) (.or (.name I.entityType) (.call I.EntityType [] [])),
    .assign (.attr (.name I.self) I.alternativeEntityType) (.or (.name I.alternativeEntityType) (.call I.EntityType [] [])),
    .assign (.attr (.name I.self) I.entityLinearVelocity) (.or (.name I.entityLinearVelocity) (.call I.Vector3Float [] [])),
    .assign (.attr (.name I.self) I.entityLocation) (.or (.name I.entityLocation) (.call I.WorldCoordinates [] [])),
    .assign (.attr (.name I.self) I.entityOrientation) (.or (.name I.entityOrientation) (.call I.EulerAngles [] [])),
    .assign (.attr (.name I.self) I.entityAppearance) (.name I.entityAppearance),
    .assign (.attr (.name I.self) I.deadReckoningParameters) (.or (.name I.deadReckoningParameters) (.call I.DeadReckoningParameters [] [])),
    .assign (.attr (.name I.self) I.marking) (.or (.name I.marking) (.call I.EntityMarking [] [])),
    .assign (.attr (.name I.self) I.capabilities) (.name I.capabilities),
    .assign (.attr (.name I.self) I.variableParameters) (.or (.name I.variableParameters) (.list []))]

/-- `EntityStatePdu.numberOfVariableParameters`, /repo/opendis/dis7.py:4845-4849. -/
def EntityStatePdu.numberOfVariableParameters : Method where
  params := []
  property := true
  body :=
   [.ret (.call I.len [.attr (.name I.self) I.variableParameters] [])]

/-- `EntityStatePdu.serialize`, /repo/opendis/dis7.py:4851-4867. -/
def EntityStatePdu.serialize : Method where
  params := [(I.outputStream, none)]
  property := false
  body :=
   [.expr (.super (some I.EntityStatePdu) I.serialize [.name I.outputStream] []),
    .expr (.method (.attr (.name I.self) I.entityID) I.serialize [.name I.outputStream] []),
    .expr (.method (.name I.outputStream) I.write_unsigned_byte [.attr (.name I.self) I.forceId] []),
    .expr (.method (.name I.outputStream) I.write_unsigned_byte [.attr (.name I.self) I.numberOfVariableParameters] []),
    .expr (.method (.attr (.name I.self) I.entityType) I.serialize [.name I.outputStream] []),
    .expr (.method (.attr (.name I.self) I.alternativeEntityType) I.serialize [.name I.outputStream] []),
    .expr (.method (.attr (.name I.self) I.entityLinearVelocity) I.serialize [.name I.outputStream] []),
    .expr (.method (.attr (.name I.self) I.entityLocation) I.serialize [.name I.outputStream] []),
    .expr (.method (.attr (.name I.self) I.entityOrientation) I.serialize [.name I.outputStream] []),
    .expr (.method (.name I.outputStream) I.write_unsigned_int [.attr (.name I.self) I.entityAppearance] []),
    .expr (.method (.attr (.name I.self) I.deadReckoningParameters) I.serialize [.name I.outputStream] []),
    .expr (.method (.attr (.name I.self) I.marking) I.serialize [.name I.outputStream] []),
    .expr (.method (.name I.outputStream) I.write_unsigned_int [.attr (.name I.self) I.capabilities] []),
    .for I.anObj (.attr (.name I.self) I.variableParameters)
      [.expr (.method (.name I.anObj) I.serialize [.name I.outputStream] [])]]

/-- `EntityStatePdu.parse`, /repo/opendis/dis7.py:4869-4887. -/
def EntityStatePdu.parse : Method where
  params := [(I.inputStream, none)]
  property := false
  body :=
   [.expr (.super (some I.EntityStatePdu) I.parse [.name I.inputStream] []),
    .expr (.method (.attr (.name I.self) I.entityID) I.parse [.name I.inputStream] []),
    .assign (.attr (.name I.self) I.forceId) (.method (.name I.inputStream) I.read_unsigned_byte [] []),
    .assign (.name I.numberOfVariableParameters) (.method (.name I.inputStream) I.read_unsigned_byte [] []),
    .expr (.method (.attr (.name I.self) I.entityType) I.parse [.name I.inputStream] []),
    .expr (.method (.attr (.name I.self) I.alternativeEntityType) I.parse [.name I.inputStream] []),
    .expr (.method (.attr (.name I.self) I.entityLinearVelocity) I.parse [.name I.inputStream] []),
    .expr (.method (.attr (.name I.self) I.entityLocation) I.parse [.name I.inputStream] []),
    .expr (.method (.attr (.name I.self) I.entityOrientation) I.parse [.name I.inputStream] []),
    .assign (.attr (.name I.self) I.entityAppearance) (.method (.name I.inputStream) I.read_unsigned_int [] []),
    .expr (.method (.attr (.name I.self) I.deadReckoningParameters) I.parse [.name I.inputStream] []),
    .expr (.method (.attr (.name I.self) I.marking) I.parse [.name I.inputStream] []),
    .assign (.attr (.name I.self) I.capabilities) (.method (.name I.inputStream) I.read_unsigned_int [] []),
    .for I.idx (.call I.range [.int 0, .name I.numberOfVariableParameters] [])
      [.assign (.name I.element) (.call I.VariableParameter [] []),
       .expr (.method (.name I.element) I.parse [.name I.inputStream] []),
       .expr (.method (.attr (.name I.self) I.variableParameters) I.append [.name I.element] [])]]

/-- `class EntityStatePdu`, /repo/opendis/dis7.py:4798-4887. -/
def EntityStatePdu : Class where
  base := some I.EntityInformationFamilyPdu
  attrs := [(I.pduType, .int 1)]
  methods :=
   [(I.__init__, EntityStatePdu.__init__),
    (I.numberOfVariableParameters, EntityStatePdu.numberOfVariableParameters),
    (I.serialize, EntityStatePdu.serialize),
    (I.parse, EntityStatePdu.parse)]

/-- `EntityManagementFamilyPdu.__init__`, /repo/opendis/dis7.py:4897-4898. -/
def EntityManagementFamilyPdu.__init__ : Method where
  params := []
  property := false
  body :=
   [.expr (.super (some I.EntityManagementFamilyPdu) I.__init__ [] [])]

/-- `EntityManagementFamilyPdu.serialize`, /repo/opendis/dis7.py:4900-4902. -/
def EntityManagementFamilyPdu.serialize : Method where
  params := [(I.outputStream, none)]
  property := false
  body :=
   [.expr (.super (some I.EntityManagementFamilyPdu) I.serialize [.name I.outputStream] [])]

/-- `EntityManagementFamilyPdu.parse`, /repo/opendis/dis7.py:4904-4906. -/
def EntityManagementFamilyPdu.parse : Method where
  params := [(I.inputStream, none)]
  property := false
  body :=
   [.expr (.super (some I.EntityManagementFamilyPdu) I.parse [.name I.inputStream] [])]

/-- `class EntityManagementFamilyPdu`, /repo/opendis/dis7.py:4890-4906. -/
def EntityManagementFamilyPdu : Class where
  base := some I.Pdu
  attrs := [(I.protocolFamily, .int 7)]
  methods :=
   [(I.__init__, EntityManagementFamilyPdu.__init__),
    (I.serialize, EntityManagementFamilyPdu.serialize),
    (I.parse, EntityManagementFamilyPdu.parse)]

/-- `StartResumePdu.__init__`, /repo/opendis/dis7.py:4916-4926. -/
def StartResumePdu.__init__ : Method where
  params := [(I.realWorldTime, some (.none)), (I.simulationTime, some (.none)), (I.requestID, some (.int 0))]
  property := false
  body :=
   [.expr (.super (some I.StartResumePdu) I.__init__ [] []),
    .assign (.attr (.name I.self) I.realWorldTime) (.or (.name I.realWorldTime) (.call I.ClockTime [] [])),
    .assign (.attr (.name I.self) I.simulationTime) (.or (.name I.simulationTime) (.call I.ClockTime [] [])),
    .assign (.attr (.name I.self) I.requestID) (.name I.requestID)]

/-- `StartResumePdu.serialize`, /repo/opendis/dis7.py:4928-4933. -/
def StartResumePdu.serialize : Method where
  params := [(I.outputStream, none)]
  property := false
  body :=
   [.expr (.super (some I.StartResumePdu) I.serialize [.name I.outputStream] []),
    .expr (.method (.attr (.name I.self) I.realWorldTime) I.serialize [.name I.outputStream] []),
    .expr (.method (.attr (.name I.self) I.simulationTime) I.serialize [.name I.outputStream] []),
    .expr (.method (.name I.outputStream) I.write_unsigned_int [.attr (.name I.self) I.requestID] [])]

/-- `StartResumePdu.parse`, /repo/opendis/dis7.py:4935-4940. -/
def StartResumePdu.parse : Method where
  params := [(I.inputStream, none)]
  property := false
  body :=
   [.expr (.super (some I.StartResumePdu) I.parse [.name I.inputStream] []),
    .expr (.method (.attr (.name I.self) I.realWorldTime) I.parse [.name I.inputStream] []),
    .expr (.method (.attr (.name I.self) I.simulationTime) I.parse [.name I.inputStream] []),
    .assign (.attr (.name I.self) I.requestID) (.method (.name I.inputStream) I.read_unsigned_int [] [])]

/-- `class StartResumePdu`, /repo/opendis/dis7.py:4909-4940. -/
def StartResumePdu : Class where
  base := some I.SimulationManagementFamilyPdu
  attrs := [(I.pduType, .int 13)]
  methods :=
   [(I.__init__, StartResumePdu.__init__),
    (I.serialize, StartResumePdu.serialize),
    (I.parse, StartResumePdu.parse)]

/-- `TransmitterPdu.__init__`, /repo/opendis/dis7.py:4952-4996. -/
def TransmitterPdu.__init__ : Method where
  params := [(I.radioReferenceID, some (.none)), (I.radioNumber, some (.int 0)), (I.radioEntityType, some (.none)),
   (I.transmitState, some (.int 0)), (I.inputSource, some (.int 0)), (I.antennaLocation, some (.none)),
   (I.relativeAntennaLocation, some (.none)), (I.antennaPatternType, some (.int 0)), (I.frequency, some (.int
   0)), (I.transmitFrequencyBandwidth, some (.float 0x0000000000000000)), (I.power, some (.float
   0x0000000000000000)), (I.modulationType, some (.none)), (I.cryptoSystem, some (.int 0)), (I.cryptoKeyId,
   some (.int 0)), (I.modulationParameters, some (.none)), (I.antennaPattern, some (.none)),
   (I.variableTransmitterParameters, some (.none))]
  property := false
  body :=
   [.expr (.super (some I.TransmitterPdu) I.__init__ [] []),
    .assign (.attr (.name I.self) I.radioReferenceID) (.or (.name I.radioReferenceID) (.call I.EntityIdentifier [] [])),
    .assign (.attr (.name I.self) I.radioNumber) (.name I.radioNumber),
    .assign (.attr (.name I.self) I.radioEntityType) (.or (.name I.radioEntityType) (.call I.EntityType [] [])),
    .assign (.attr (.name I.self) I.transmitState) (.name I.transmitState),
    .assign (.attr (.name I.self) I.inputSource) (.name I.inputSource),
    .assign (.attr (.name I.self) I.antennaLocation) (.or (.name I.antennaLocation) (.call I.WorldCoordinates [] [])),
    .assign (.attr (.name I.self) I.relativeAntennaLocation) (.or (.name I.relativeAntennaLocation) (.call I.Vector3Float [] [])),
    .assign (.attr (.name I.self) I.antennaPatternType) (.name I.antennaPatternType),
    .assign (.attr (.name I.self) I.frequency) (.name I.frequency),
    .assign (.attr (.name I.self) I.transmitFrequencyBandwidth) (.name I.transmitFrequencyBandwidth),
    .assign (.attr (.name I.self) I.power) (.name I.power),
    .assign (.attr (.name I.self) I.modulationType) (.or (.name I.modulationType) (.call I.ModulationType [] [])),
    .assign (.attr (.name I.self) I.cryptoSystem) (.name I.cryptoSystem),
    .assign (.attr (.name I.self) I.cryptoKeyId) (.name I.cryptoKeyId),
    .assign (.attr (.name I.self) I.padding2) (.int 0),
    .assign (.attr (.name I.self) I.padding3) (.int 0),
    .assign (.attr (.name I.self) I.modulationParameters) (.name I.modulationParameters),
    .assign (.attr (.name I.self) I.antennaPattern) (.name I.antennaPattern),
    .assign (.attr (.name I.self) I.variableTransmitterParameters) (.ite (.name I.variableTransmitterParameters) (.call I.list [.name I.variableTransmitterParameters] []) (.list []))]

/-- `TransmitterPdu.antennaPatternLength`, /repo/opendis/dis7.py:4999-5003. -/
def TransmitterPdu.antennaPatternLength : Method where
  params := []
  property := true
  body :=
   [.ite (.attr (.name I.self) I.antennaPattern)
      [.ret (.method (.attr (.name I.self) I.antennaPattern) I.marshalledSize [] [])]
      [.ret (.int 0)]]

/-- `TransmitterPdu.modulationParametersLength`, /repo/opendis/dis7.py:5006-5010. -/
def TransmitterPdu.modulationParametersLength : Method where
  params := []
  property := true
  body :=
   [.ite (.attr (.name I.self) I.modulationParameters)
      [.ret (.method (.attr (.name I.self) I.modulationParameters) I.marshalledSize [] [])]
      [.ret (.int 0)]]

/-- `TransmitterPdu.variableTransmitterParameterCount`, /repo/opendis/dis7.py:5013-5014. -/
def TransmitterPdu.variableTransmitterParameterCount : Method where
  params := []
  property := true
  body :=
   [.ret (.call I.len [.attr (.name I.self) I.variableTransmitterParameters] [])]

/-- `TransmitterPdu.serialize`, /repo/opendis/dis7.py:5016-5050. -/
def TransmitterPdu.serialize : Method where
  params := [(I.outputStream, none)]
  property := false
  body :=
   [.expr (.super (some I.TransmitterPdu) I.serialize [.name I.outputStream] []),
    .expr (.method (.attr (.name I.self) I.radioReferenceID) I.serialize [.name I.outputStream] []),
    .expr (.method (.name I.outputStream) I.write_uint16 [.attr (.name I.self) I.radioNumber] []),
    .expr (.method (.attr (.name I.self) I.radioEntityType) I.serialize [.name I.outputStream] []),
    .expr (.method (.name I.outputStream) I.write_uint8 [.attr (.name I.self) I.transmitState] []),
    .expr (.method (.name I.outputStream) I.write_uint8 [.attr (.name I.self) I.inputSource] []),
    .expr (.method (.name I.outputStream) I.write_uint16 [.attr (.name I.self) I.variableTransmitterParameterCount] []),
    .expr (.method (.attr (.name I.self) I.antennaLocation) I.serialize [.name I.outputStream] []),
    .expr (.method (.attr (.name I.self) I.relativeAntennaLocation) I.serialize [.name I.outputStream] []),
    .expr (.method (.name I.outputStream) I.write_uint16 [.attr (.name I.self) I.antennaPatternType] []),
    .expr (.method (.name I.outputStream) I.write_uint16 [.attr (.name I.self) I.antennaPatternLength] []),
    .expr (.method (.name I.outputStream) I.write_uint64 [.attr (.name I.self) I.frequency] []),
    .expr (.method (.name I.outputStream) I.write_float32 [.attr (.name I.self) I.transmitFrequencyBandwidth] []),
    .expr (.method (.name I.outputStream) I.write_float32 [.attr (.name I.self) I.power] []),
    .expr (.method (.attr (.name I.self) I.modulationType) I.serialize [.name I.outputStream] []),
    .expr (.method (.name I.outputStream) I.write_uint16 [.attr (.name I.self) I.cryptoSystem] []),
    .expr (.method (.name I.outputStream) I.write_uint16 [.attr (.name I.self) I.cryptoKeyId] []),
    .expr (.method (.name I.outputStream) I.write_uint8 [.attr (.name I.self) I.modulationParametersLength] []),
    .expr (.method (.name I.outputStream) I.write_uint16 [.attr (.name I.self) I.padding2] []),
    .expr (.method (.name I.outputStream) I.write_uint8 [.attr (.name I.self) I.padding3] []),
    .ite (.attr (.name I.self) I.modulationParameters)
      [.expr (.method (.attr (.name I.self) I.modulationParameters) I.serialize [.name I.outputStream] [])]
      [],
    .ite (.attr (.name I.self) I.antennaPattern)
      [.expr (.method (.attr (.name I.self) I.antennaPattern) I.serialize [.name I.outputStream] [])]
      [],
    .for I.vtp (.attr (.name I.self) I.variableTransmitterParameters)
      [.expr (.method (.name I.vtp) I.serialize [.name I.outputStream] [])]]

/-- `TransmitterPdu.parse`, /repo/opendis/dis7.py:5052-5116. -/
def TransmitterPdu.parse : Method where
  params := [(I.inputStream, none)]
  property := false
  body :=
   [.expr (.super (some I.TransmitterPdu) I.parse [.name I.inputStream] []),
    .expr (.method (.attr (.name I.self) I.radioReferenceID) I.parse [.name I.inputStream] []),
    .assign (.attr (.name I.self) I.radioNumber) (.method (.name I.inputStream) I.read_uint16 [] []),
    .expr (.method (.attr (.name I.self) I.radioEntityType) I.parse [.name I.inputStream] []),
    .assign (.attr (.name I.self) I.transmitState) (.method (.name I.inputStream) I.read_uint8 [] []),
    .assign (.attr (.name I.self) I.inputSource) (.method (.name I.inputStream) I.read_uint8 [] []),
    .assign (.name I.variableTransmitterParameterCount) (.method (.name I.inputStream) I.read_uint16 [] []),
    .expr (.method (.attr (.name I.self) I.antennaLocation) I.parse [.name I.inputStream] []),
    .expr (.method (.attr (.name I.self) I.relativeAntennaLocation) I.parse [.name I.inputStream] []),
    .assign (.attr (.name I.self) I.antennaPatternType) (.method (.name I.inputStream) I.read_uint16 [] []),
    .assign (.name I.antennaPatternLength) (.method (.name I.inputStream) I.read_uint16 [] []),
    .assign (.attr (.name I.self) I.frequency) (.method (.name I.inputStream) I.read_uint64 [] []),
    .assign (.attr (.name I.self) I.transmitFrequencyBandwidth) (.method (.name I.inputStream) I.read_float32 [] []),
    .assign (.attr (.name I.self) I.power) (.method (.name I.inputStream) I.read_float32 [] []),
    .expr (.method (.attr (.name I.self) I.modulationType) I.parse [.name I.inputStream] []),
    .assign (.attr (.name I.self) I.cryptoSystem) (.method (.name I.inputStream) I.read_uint16 [] []),
    .assign (.attr (.name I.self) I.cryptoKeyId) (.method (.name I.inputStream) I.read_uint16 [] []),
    .assign (.name I.modulationParametersLength) (.method (.name I.inputStream) I.read_uint8 [] []),
    .assign (.attr (.name I.self) I.padding2) (.method (.name I.inputStream) I.read_uint16 [] []),
    .assign (.attr (.name I.self) I.padding3) (.method (.name I.inputStream) I.read_uint8 [] []),
    .ite (.cmp .gt (.name I.modulationParametersLength) (.int 0))
      [.ite (.cmp .eq (.attr (.attr (.name I.self) I.modulationType) I.radioSystem) (.int 1))
         [.ite (.cmp .eq (.attr (.attr (.name I.self) I.modulationType) I.majorModulation) (.int 0))
            [.assign (.name I.radio) (.call I.SimpleIntercomRadio [] [])]
            [.assign (.name I.radio) (.call I.GenericRadio [] [])],
          .expr (.method (.name I.radio) I.parse [.name I.inputStream] [])]
         [.ite (.cmp .isIn (.attr (.attr (.name I.self) I.modulationType) I.radioSystem) (.list [.int 2, .int 3, .int 4]))
            [.assign (.name I.radio) (.call I.BasicHaveQuickMP [] []),
             .expr (.method (.name I.radio) I.parse [.name I.inputStream] [])]
            [.ite (.cmp .eq (.attr (.attr (.name I.self) I.modulationType) I.radioSystem) (.int 6))
               [.assign (.name I.radio) (.call I.CCTTSincgarsMP [] []),
                .expr (.method (.name I.radio) I.parse [.name I.inputStream] [])]
               [.assign (.name I.radio) (.call I.UnknownRadio [] []),
                .expr (.method (.name I.radio) I.parse [.name I.inputStream, .name I.modulationParametersLength] [I.bytelength])]]],
       .assign (.attr (.name I.self) I.modulationParameters) (.name I.radio)]
      [.assign (.attr (.name I.self) I.modulationParameters) .none],
    .ite (.cmp .gt (.name I.antennaPatternLength) (.int 0))
      [.ite (.cmp .eq (.attr (.name I.self) I.antennaPatternType) (.int 1))
         [.assign (.attr (.name I.self) I.antennaPattern) (.call I.BeamAntennaPattern [] []),
          .expr (.method (.attr (.name I.self) I.antennaPattern) I.parse [.name I.inputStream] [])]
         [.assign (.attr (.name I.self) I.antennaPattern) (.call I.UnknownAntennaPattern [] []),
          .expr (.method (.attr (.name I.self) I.antennaPattern) I.parse [.name I.inputStream, .name I.antennaPatternLength] [I.bytelength])]]
      [.assign (.attr (.name I.self) I.antennaPattern) .none],
    .for I.«_» (.call I.range [.int 0, .name I.variableTransmitterParameterCount] [])
      [.assign (.name I.vtp) (.func I.parseStandardVariableRecord [.name I.inputStream, .name I.VariableTransmitterParametersRecord] []),
       .expr (.method (.attr (.name I.self) I.variableTransmitterParameters) I.append [.name I.vtp] [])]]

/-- `class TransmitterPdu`, /repo/opendis/dis7.py:4943-5116. -/
def TransmitterPdu : Class where
  base := some I.RadioCommunicationsFamilyPdu
  attrs := [(I.pduType, .int 25)]
  methods :=
   [(I.__init__, TransmitterPdu.__init__),
    (I.antennaPatternLength, TransmitterPdu.antennaPatternLength),
    (I.modulationParametersLength, TransmitterPdu.modulationParametersLength),
    (I.variableTransmitterParameterCount, TransmitterPdu.variableTransmitterParameterCount),
    (I.serialize, TransmitterPdu.serialize),
    (I.parse, TransmitterPdu.parse)]

/-- `ElectromagneticEmissionsPdu.__init__`, /repo/opendis/dis7.py:5127-5140. -/
def ElectromagneticEmissionsPdu.__init__ : Method where
  params := [(I.emittingEntityID, some (.none)), (I.eventID, some (.none)), (I.stateUpdateIndicator, some (.int 0)),
   (I.systems, some (.none))]
  property := false
  body :=
   [.expr (.super (some I.ElectromagneticEmissionsPdu) I.__init__ [] []),
    .assign (.attr (.name I.self) I.emittingEntityID) (.or (.name I.emittingEntityID) (.call I.EntityIdentifier [] [])),
    .assign (.attr (.name I.self) I.eventID) (.or (.name I.eventID) (.call I.EventIdentifier [] [])),
    .assign (.attr (.name I.self) I.stateUpdateIndicator) (.name I.stateUpdateIndicator),
    .assign (.attr (.name I.self) I.systems) (.or (.name I.systems) (.list [])),
    .assign (.attr (.name I.self) I.paddingForEmissionsPdu) (.int 0)]

/-- `ElectromagneticEmissionsPdu.numberOfSystems`, /repo/opendis/dis7.py:5143-5144. -/
def ElectromagneticEmissionsPdu.numberOfSystems : Method where
  params := []
  property := true
  body :=
   [.ret (.call I.len [.attr (.name I.self) I.systems] [])]

/-- `ElectromagneticEmissionsPdu.serialize`, /repo/opendis/dis7.py:5146-5155. -/
def ElectromagneticEmissionsPdu.serialize : Method where
  params := [(I.outputStream, none)]
  property := false
  body :=
   [.expr (.super (some I.ElectromagneticEmissionsPdu) I.serialize [.name I.outputStream] []),
    .expr (.method (.attr (.name I.self) I.emittingEntityID) I.serialize [.name I.outputStream] []),
    .expr (.method (.attr (.name I.self) I.eventID) I.serialize [.name I.outputStream] []),
    .expr (.method (.name I.outputStream) I.write_unsigned_byte [.attr (.name I.self) I.stateUpdateIndicator] []),
    .expr (.method (.name I.outputStream) I.write_unsigned_byte [.attr (.name I.self) I.numberOfSystems] []),
    .expr (.method (.name I.outputStream) I.write_unsigned_short [.attr (.name I.self) I.paddingForEmissionsPdu] []),
    .for I.anObj (.attr (.name I.self) I.systems)
      [.expr (.method (.name I.anObj) I.serialize [.name I.outputStream] [])]]

/-- `ElectromagneticEmissionsPdu.parse`, /repo/opendis/dis7.py:5157-5169. -/
def ElectromagneticEmissionsPdu.parse : Method where
  params := [(I.inputStream, none)]
  property := false
  body :=
   [.expr (.super (some I.ElectromagneticEmissionsPdu) I.parse [.name I.inputStream] []),
    .expr (.method (.attr (.name I.self) I.emittingEntityID) I.parse [.name I.inputStream] []),
    .expr (.method (.attr (.name I.self) I.eventID) I.parse [.name I.inputStream] []),
    .assign (.attr (.name I.self) I.stateUpdateIndicator) (.method (.name I.inputStream) I.read_unsigned_byte [] []),
    .assign (.name I.numberOfSystems) (.method (.name I.inputStream) I.read_unsigned_byte [] []),
    .assign (.attr (.name I.self) I.paddingForEmissionsPdu) (.method (.name I.inputStream) I.read_unsigned_short [] []),
    .for I.idx (.call I.range [.int 0, .name I.numberOfSystems] [])
      [.assign (.name I.element) (.call I.EmissionSystemRecord [] []),
       .expr (.method (.name I.element) I.parse [.name I.inputStream] []),
       .expr (.method (.attr (.name I.self) I.systems) I.append [.name I.element] [])]]

/-- `class ElectromagneticEmissionsPdu`, /repo/opendis/dis7.py:5119-5169. -/
def ElectromagneticEmissionsPdu : Class where
  base := some I.DistributedEmissionsFamilyPdu
  attrs := [(I.pduType, .int 23)]
  methods :=
   [(I.__init__, ElectromagneticEmissionsPdu.__init__),
    (I.numberOfSystems, ElectromagneticEmissionsPdu.numberOfSystems),
    (I.serialize, ElectromagneticEmissionsPdu.serialize),
    (I.parse, ElectromagneticEmissionsPdu.parse)]

/-- `EmissionSystemBeamRecord.__init__`, /repo/opendis/dis7.py:5178-5197. -/
def EmissionSystemBeamRecord.__init__ : Method where
  params := [(I.beamDataLength, some (.int 0)), (I.beamIDNumber, some (.int 0)), (I.beamParameterIndex, some (.int 0)),
   (I.fundamentalParameterData, some (.none)), (I.beamFunction, some (.int 0)), (I.highDensityTrackJam, some
   (.int 0)), (I.beamStatus, some (.none)), (I.jammingModeSequence, some (.int 0)), (I.trackJamRecords, some
   (.none))]
  property := false
  body :=
   [.assign (.attr (.name I.self) I.beamDataLength) (.name I.beamDataLength),
    .assign (.attr (.name I.self) I.beamIDNumber) (.name I.beamIDNumber),
    .assign (.attr (.name I.self) I.beamParameterIndex) (.name I.beamParameterIndex),
    .assign (.attr (.name I.self) I.fundamentalParameterData) (.or (.name I.fundamentalParameterData) (.call I.EEFundamentalParameterData [] [])),
    .assign (.attr (.name I.self) I.beamFunction) (.name I.beamFunction),
    .assign (.attr (.name I.self) I.highDensityTrackJam) (.name I.highDensityTrackJam),
    .assign (.attr (.name I.self) I.beamStatus) (.or (.name I.beamStatus) (.call I.BeamStatus [] [])),
    .assign (.attr (.name I.self) I.jammingModeSequence) (.name I.jammingModeSequence),
    .assign (.attr (.name I.self) I.trackJamRecords) (.or (.name I.trackJamRecords) (.list []))]

/-- `EmissionSystemBeamRecord.numberOfTargetsInTrackJam`, /repo/opendis/dis7.py:5200-5201. -/
def EmissionSystemBeamRecord.numberOfTargetsInTrackJam : Method where
  params := []
  property := true
  body :=
   [.ret (.call I.len [.attr (.name I.self) I.trackJamRecords] [])]

/-- `EmissionSystemBeamRecord.serialize`, /repo/opendis/dis7.py:5203-5215. -/
def EmissionSystemBeamRecord.serialize : Method where
  params := [(I.outputStream, none)]
  property := false
  body :=
   [.expr (.method (.name I.outputStream) I.write_unsigned_byte [.attr (.name I.self) I.beamDataLength] []),
    .expr (.method (.name I.outputStream) I.write_unsigned_byte [.attr (.name I.self) I.beamIDNumber] []),
    .expr (.method (.name I.outputStream) I.write_unsigned_short [.attr (.name I.self) I.beamParameterIndex] []),
    .expr (.method (.attr (.name I.self) I.fundamentalParameterData) I.serialize [.name I.outputStream] []),
    .expr (.method (.name I.outputStream) I.write_unsigned_byte [.attr (.name I.self) I.beamFunction] []),
    .expr (.method (.name I.outputStream) I.write_unsigned_byte [.attr (.name I.self) I.numberOfTargetsInTrackJam] []),
    .expr (.method (.name I.outputStream) I.write_unsigned_byte [.attr (.name I.self) I.highDensityTrackJam] []),
    .expr (.method (.attr (.name I.self) I.beamStatus) I.serialize [.name I.outputStream] []),
    .expr (.method (.name I.outputStream) I.write_unsigned_int [.attr (.name I.self) I.jammingModeSequence] []),
    .for I.anObj (.attr (.name I.self) I.trackJamRecords)
      [.expr (.method (.name I.anObj) I.serialize [.name I.outputStream] [])]]

/-- `EmissionSystemBeamRecord.parse`, /repo/opendis/dis7.py:5217-5231. -/
def EmissionSystemBeamRecord.parse : Method where
  params := [(I.inputStream, none)]
  property := false
  body :=
   [.assign (.attr (.name I.self) I.beamDataLength) (.method (.name I.inputStream) I.read_unsigned_byte [] []),
    .assign (.attr (.name I.self) I.beamIDNumber) (.method (.name I.inputStream) I.read_unsigned_byte [] []),
    .assign (.attr (.name I.self) I.beamParameterIndex) (.method (.name I.inputStream) I.read_unsigned_short [] []),
    .expr (.method (.attr (.name I.self) I.fundamentalParameterData) I.parse [.name I.inputStream] []),
    .assign (.attr (.name I.self) I.beamFunction) (.method (.name I.inputStream) I.read_unsigned_byte [] []),
    .assign (.name I.numberOfTargetsInTrackJam) (.method (.name I.inputStream) I.read_unsigned_byte [] []),
    .assign (.attr (.name I.self) I.highDensityTrackJam) (.method (.name I.inputStream) I.read_unsigned_byte [] []),
    .expr (.method (.attr (.name I.self) I.beamStatus) I.parse [.name I.inputStream] []),
    .assign (.attr (.name I.self) I.jammingModeSequence) (.method (.name I.inputStream) I.read_unsigned_int [] []),
    .for I.idx (.call I.range [.int 0, .name I.numberOfTargetsInTrackJam] [])
      [.assign (.name I.element) (.call I.TrackJamData [] []),
       .expr (.method (.name I.element) I.parse [.name I.inputStream] []),
       .expr (.method (.attr (.name I.self) I.trackJamRecords) I.append [.name I.element] [])]]

/-- `class EmissionSystemBeamRecord`, /repo/opendis/dis7.py:5172-5231. -/
def EmissionSystemBeamRecord : Class where
  base := none
  attrs := []
  methods :=
   [(I.__init__, EmissionSystemBeamRecord.__init__),
    (I.numberOfTargetsInTrackJam, EmissionSystemBeamRecord.numberOfTargetsInTrackJam),
    (I.serialize, EmissionSystemBeamRecord.serialize),
    (I.parse, EmissionSystemBeamRecord.parse)]

/-- `EmissionSystemRecord.__init__`, /repo/opendis/dis7.py:5240-5252. -/
def EmissionSystemRecord.__init__ : Method where
  params := [(I.systemDataLength, some (.int 0)), (I.emitterSystem, some (.none)), (I.location, some (.none)),
   (I.beamRecords, some (.none))]
  property := false
  body :=
   [.assign (.attr (.name I.self) I.systemDataLength) (.name I.systemDataLength),
    .assign (.attr (.name I.self) I.paddingForEmissionsPdu) (.int 0),
    .assign (.attr (.name I.self) I.emitterSystem) (.or (.name I.emitterSystem) (.call I.EmitterSystem [] [])),
    .assign (.attr (.name I.self) I.location) (.or (.name I.location) (.call I.Vector3Float [] [])),
    .assign (.attr (.name I.self) I.beamRecords) (.or (.name I.beamRecords) (.list []))]

/-- `EmissionSystemRecord.numberOfBeams`, /repo/opendis/dis7.py:5255-5256. -/
def EmissionSystemRecord.numberOfBeams : Method where
  params := []
  property := true
  body :=
   [.ret (.call I.len [.attr (.name I.self) I.beamRecords] [])]

/-- `EmissionSystemRecord.serialize`, /repo/opendis/dis7.py:5258-5265. -/
def EmissionSystemRecord.serialize : Method where
  params := [(I.outputStream, none)]
  property := false
  body :=
   [.expr (.method (.name I.outputStream) I.write_unsigned_byte [.attr (.name I.self) I.systemDataLength] []),
    .expr (.method (.name I.outputStream) I.write_unsigned_byte [.attr (.name I.self) I.numberOfBeams] []),
    .expr (.method (.name I.outputStream) I.write_unsigned_short [.int 0] []),
    .expr (.method (.attr (.name I.self) I.emitterSystem) I.serialize [.name I.outputStream] []),
    .expr (.method (.attr (.name I.self) I.location) I.serialize [.name I.outputStream] []),
    .for I.anObj (.attr (.name I.self) I.beamRecords)
      [.expr (.method (.name I.anObj) I.serialize [.name I.outputStream] [])]]

/-- `EmissionSystemRecord.parse`, /repo/opendis/dis7.py:5267-5276. -/
def EmissionSystemRecord.parse : Method where
  params := [(I.inputStream, none)]
  property := false
  body :=
   [.assign (.attr (.name I.self) I.systemDataLength) (.method (.name I.inputStream) I.read_unsigned_byte [] []),
    .assign (.name I.numberOfBeams) (.method (.name I.inputStream) I.read_unsigned_byte [] []),
    .expr (.method (.name I.inputStream) I.read_unsigned_short [] []),
    .expr (.method (.attr (.name I.self) I.emitterSystem) I.parse [.name I.inputStream] []),
    .expr (.method (.attr (.name I.self) I.location) I.parse [.name I.inputStream] []),
    .for I.idx (.call I.range [.int 0, .name I.numberOfBeams] [])
      [.assign (.name I.element) (.call I.EmissionSystemBeamRecord [] []),
       .expr (.method (.name I.element) I.parse [.name I.inputStream] []),
       .expr (.method (.attr (.name I.self) I.beamRecords) I.append [.name I.element] [])]]

/-- `class EmissionSystemRecord`, /repo/opendis/dis7.py:5234-5276. -/
def EmissionSystemRecord : Class where
  base := none
  attrs := []
  methods :=
   [(I.__init__, EmissionSystemRecord.__init__),
    (I.numberOfBeams, EmissionSystemRecord.numberOfBeams),
    (I.serialize, EmissionSystemRecord.serialize),
    (I.parse, EmissionSystemRecord.parse)]

/-- `ResupplyOfferPdu.__init__`, /repo/opendis/dis7.py:5287-5299. -/
def ResupplyOfferPdu.__init__ : Method where
  params := [(I.receivingEntityID, some (.none)), (I.supplyingEntityID, some (.none)), (I.supplies, some (.none))]
  property := false
  body :=
   [.expr (.super (some I.ResupplyOfferPdu) I.__init__ [] []),
    .assign (.attr (.name I.self) I.receivingEntityID) (.or (.name I.receivingEntityID) (.call I.EntityIdentifier [] [])),
    .assign (.attr (.name I.self) I.supplyingEntityID) (.or (.name I.supplyingEntityID) (.call I.EntityIdentifier [] [])),
    .assign (.attr (.name I.self) I.padding1) (.int 0),
    .assign (.attr (.name I.self) I.padding2) (.int 0),
    .assign (.attr (.name I.self) I.supplies) (.or (.name I.supplies) (.list []))]

/-- `ResupplyOfferPdu.numberOfSupplyTypes`, /repo/opendis/dis7.py:5302-5303. -/
def ResupplyOfferPdu.numberOfSupplyTypes : Method where
  params := []
  property := true
  body :=
   [.ret (.call I.len [.attr (.name I.self) I.supplies] [])]

/-- `ResupplyOfferPdu.serialize`, /repo/opendis/dis7.py:5305-5314. -/
def ResupplyOfferPdu.serialize : Method where
  params := [(I.outputStream, none)]
  property := false
  body :=
   [.expr (.super (some I.ResupplyOfferPdu) I.serialize [.name I.outputStream] []),
    .expr (.method (.attr (.name I.self) I.receivingEntityID) I.serialize [.name I.outputStream] []),
    .expr (.method (.attr (.name I.self) I.supplyingEntityID) I.serialize [.name I.outputStream] []),
    .expr (.method (.name I.outputStream) I.write_unsigned_byte [.attr (.name I.self) I.numberOfSupplyTypes] []),
    .expr (.method (.name I.outputStream) I.write_byte [.attr (.name I.self) I.padding1] []),
    .expr (.method (.name I.outputStream) I.write_short [.attr (.name I.self) I.padding2] []),
    .for I.anObj (.attr (.name I.self) I.supplies)
      [.expr (.method (.name I.anObj) I.serialize [.name I.outputStream] [])]]

/-- `ResupplyOfferPdu.parse`, /repo/opendis/dis7.py:5316-5327. -/
def ResupplyOfferPdu.parse : Method where
  params := [(I.inputStream, none)]
  property := false
  body :=
   [.expr (.super (some I.ResupplyOfferPdu) I.parse [.name I.inputStream] []),
    .expr (.method (.attr (.name I.self) I.receivingEntityID) I.parse [.name I.inputStream] []),
    .expr (.method (.attr (.name I.self) I.supplyingEntityID) I.parse [.name I.inputStream] []),
    .assign (.name I.numberOfSupplyTypes) (.method (.name I.inputStream) I.read_unsigned_byte [] []),
    .assign (.attr (.name I.self) I.padding1) (.method (.name I.inputStream) I.read_byte [] []),
    .assign (.attr (.name I.self) I.padding2) (.method (.name I.inputStream) I.read_short [] []),
    .for I.idx (.call I.range [.int 0, .name I.numberOfSupplyTypes] [])
      [.assign (.name I.element) (.call I.SupplyQuantity [] []),
       .expr (.method (.name I.element) I.parse [.name I.inputStream] []),
       .expr (.method (.attr (.name I.self) I.supplies) I.append [.name I.element] [])]]

/-- `class ResupplyOfferPdu`, /repo/opendis/dis7.py:5279-5327. -/
def ResupplyOfferPdu : Class where
  base := some I.LogisticsFamilyPdu
  attrs := [(I.pduType, .int 6)]
  methods :=
   [(I.__init__, ResupplyOfferPdu.__init__),
    (I.numberOfSupplyTypes, ResupplyOfferPdu.numberOfSupplyTypes),
    (I.serialize, ResupplyOfferPdu.serialize),
    (I.parse, ResupplyOfferPdu.parse)]

end Dis.Src
