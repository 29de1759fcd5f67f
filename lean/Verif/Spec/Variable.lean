import Verif.Spec.Bits

/-!
# Specification of the fixed-layout records of `opendis/record`

Generated by `tools/genvar.py`.
-/

set_option linter.unusedVariables false

namespace Dis

/-- The object `s` after it parsed what `o` serialized (/repo/opendis/record/radio/__init__.py:137-164). -/
def BeamAntennaPattern.after (s o : BeamAntennaPattern) : BeamAntennaPattern :=
  {
    beamDirection := EulerAngles.after s.beamDirection o.beamDirection,
    azimuthBeamwidth := quant o.azimuthBeamwidth,
    elevationBeamwidth := quant o.elevationBeamwidth,
    referenceSystem := o.referenceSystem,
    padding1 := o.padding1,
    padding2 := o.padding2,
    ez := quant o.ez,
    ex := quant o.ex,
    phase := quant o.phase,
    padding3 := o.padding3 }

/-- Every field of `o` fits its wire type (/repo/opendis/record/radio/__init__.py:137-164). -/
def BeamAntennaPattern.WireOk (o : BeamAntennaPattern) : Prop :=
  EulerAngles.WireOk o.beamDirection ∧
  F32Fits o.azimuthBeamwidth ∧
  F32Fits o.elevationBeamwidth ∧
  U8 o.referenceSystem ∧
  U8 o.padding1 ∧
  U16 o.padding2 ∧
  F32Fits o.ez ∧
  F32Fits o.ex ∧
  F32Fits o.phase ∧
  U32 o.padding3

/-- `o` is in the form a fresh `BeamAntennaPattern` takes after parsing (/repo/opendis/record/radio/__init__.py:137-164). -/
def BeamAntennaPattern.Canon (o : BeamAntennaPattern) : Prop :=
  EulerAngles.Canon o.beamDirection ∧
  quant o.azimuthBeamwidth = o.azimuthBeamwidth ∧
  quant o.elevationBeamwidth = o.elevationBeamwidth ∧
  quant o.ez = o.ez ∧
  quant o.ex = o.ex ∧
  quant o.phase = o.phase

/-- No single-precision field of `o` is a NaN (/repo/opendis/record/radio/__init__.py:137-164). -/
def BeamAntennaPattern.NoNaN (o : BeamAntennaPattern) : Prop :=
  EulerAngles.NoNaN o.beamDirection ∧
  ¬ o.azimuthBeamwidth.isNaN ∧
  ¬ o.elevationBeamwidth.isNaN ∧
  ¬ o.ez.isNaN ∧
  ¬ o.ex.isNaN ∧
  ¬ o.phase.isNaN

/-- Number of bytes that `serialize` writes (/repo/opendis/record/radio/__init__.py:137-164). -/
def BeamAntennaPattern.wireSize (_o : BeamAntennaPattern) : Nat := 40

/-- The object `s` after it parsed what `o` serialized (/repo/opendis/record/radio/__init__.py:243-253). -/
def ModulationType.after (s o : ModulationType) : ModulationType :=
  {
    spreadSpectrum := SpreadSpectrum.after s.spreadSpectrum o.spreadSpectrum,
    majorModulation := o.majorModulation,
    detail := o.detail,
    radioSystem := o.radioSystem }

/-- Every field of `o` fits its wire type (/repo/opendis/record/radio/__init__.py:243-253). -/
def ModulationType.WireOk (o : ModulationType) : Prop :=
  SpreadSpectrum.WireOk o.spreadSpectrum ∧
  U16 o.majorModulation ∧
  U16 o.detail ∧
  U16 o.radioSystem

/-- `o` is in the form a fresh `ModulationType` takes after parsing (/repo/opendis/record/radio/__init__.py:243-253). -/
def ModulationType.Canon (o : ModulationType) : Prop :=
  SpreadSpectrum.Canon o.spreadSpectrum

/-- No single-precision field of `o` is a NaN (/repo/opendis/record/radio/__init__.py:243-253). -/
def ModulationType.NoNaN (o : ModulationType) : Prop :=
  SpreadSpectrum.NoNaN o.spreadSpectrum

/-- Number of bytes that `serialize` writes (/repo/opendis/record/radio/__init__.py:243-253). -/
def ModulationType.wireSize (_o : ModulationType) : Nat := 8

/-- The object `s` after it parsed what `o` serialized (/repo/opendis/record/radio/__init__.py:379-400). -/
def BasicHaveQuickMP.after (s o : BasicHaveQuickMP) : BasicHaveQuickMP :=
  {
    net_id := NetId.after s.net_id o.net_id,
    mwod_index := o.mwod_index,
    reserved16 := o.reserved16,
    reserved8_1 := o.reserved8_1,
    reserved8_2 := o.reserved8_2,
    time_of_day := o.time_of_day,
    padding := o.padding }

/-- Every field of `o` fits its wire type (/repo/opendis/record/radio/__init__.py:379-400). -/
def BasicHaveQuickMP.WireOk (o : BasicHaveQuickMP) : Prop :=
  NetId.WireOk o.net_id ∧
  U16 o.mwod_index ∧
  U16 o.reserved16 ∧
  U8 o.reserved8_1 ∧
  U8 o.reserved8_2 ∧
  U32 o.time_of_day ∧
  U32 o.padding

/-- `o` is in the form a fresh `BasicHaveQuickMP` takes after parsing (/repo/opendis/record/radio/__init__.py:379-400). -/
def BasicHaveQuickMP.Canon (o : BasicHaveQuickMP) : Prop :=
  NetId.Canon o.net_id

/-- No single-precision field of `o` is a NaN (/repo/opendis/record/radio/__init__.py:379-400). -/
def BasicHaveQuickMP.NoNaN (o : BasicHaveQuickMP) : Prop :=
  NetId.NoNaN o.net_id

/-- Number of bytes that `serialize` writes (/repo/opendis/record/radio/__init__.py:379-400). -/
def BasicHaveQuickMP.wireSize (_o : BasicHaveQuickMP) : Nat := 16

/-- The object `s` after it parsed what `o` serialized (/repo/opendis/record/radio/__init__.py:426-449). -/
def CCTTSincgarsMP.after (s o : CCTTSincgarsMP) : CCTTSincgarsMP :=
  {
    fh_net_id := o.fh_net_id,
    hop_set_id := o.hop_set_id,
    lockout_set_id := o.lockout_set_id,
    start_of_message := o.start_of_message,
    clear_channel := o.clear_channel,
    fh_sync_time_offset := o.fh_sync_time_offset,
    transmission_security_key := o.transmission_security_key,
    padding := o.padding }

/-- Every field of `o` fits its wire type (/repo/opendis/record/radio/__init__.py:426-449). -/
def CCTTSincgarsMP.WireOk (o : CCTTSincgarsMP) : Prop :=
  U16 o.fh_net_id ∧
  U16 o.hop_set_id ∧
  U16 o.lockout_set_id ∧
  U8 o.start_of_message ∧
  U8 o.clear_channel ∧
  U32 o.fh_sync_time_offset ∧
  U16 o.transmission_security_key ∧
  U16 o.padding

/-- `o` is in the form a fresh `CCTTSincgarsMP` takes after parsing (/repo/opendis/record/radio/__init__.py:426-449). -/
def CCTTSincgarsMP.Canon (o : CCTTSincgarsMP) : Prop :=
  True

/-- No single-precision field of `o` is a NaN (/repo/opendis/record/radio/__init__.py:426-449). -/
def CCTTSincgarsMP.NoNaN (o : CCTTSincgarsMP) : Prop :=
  True

/-- Number of bytes that `serialize` writes (/repo/opendis/record/radio/__init__.py:426-449). -/
def CCTTSincgarsMP.wireSize (_o : CCTTSincgarsMP) : Nat := 16

/-- The part of the record after type and length, in the layout its `parse` expects (/repo/opendis/record/radio/__init__.py:481-510). -/
def HighFidelityHAVEQUICKRadio.body (o : HighFidelityHAVEQUICKRadio) : W Unit := do
  write_uint16 o.padding1
  NetId.serialize o.netId
  write_uint8 o.todTransmitIndicator
  write_uint8 o.padding2
  write_uint32 o.todDelta
  write_uint32 o.wod1
  write_uint32 o.wod2
  write_uint32 o.wod3
  write_uint32 o.wod4
  write_uint32 o.wod5
  write_uint32 o.wod6

/-- The object `s` after it parsed what `o` serialized (/repo/opendis/record/radio/__init__.py:481-510). -/
def HighFidelityHAVEQUICKRadio.after (s o : HighFidelityHAVEQUICKRadio) : HighFidelityHAVEQUICKRadio :=
  {
    padding1 := o.padding1,
    netId := NetId.after s.netId o.netId,
    todTransmitIndicator := o.todTransmitIndicator,
    padding2 := o.padding2,
    todDelta := o.todDelta,
    wod1 := o.wod1,
    wod2 := o.wod2,
    wod3 := o.wod3,
    wod4 := o.wod4,
    wod5 := o.wod5,
    wod6 := o.wod6 }

/-- Every field of `o` fits its wire type (/repo/opendis/record/radio/__init__.py:481-510). -/
def HighFidelityHAVEQUICKRadio.WireOk (o : HighFidelityHAVEQUICKRadio) : Prop :=
  U16 o.padding1 ∧
  NetId.WireOk o.netId ∧
  U8 o.todTransmitIndicator ∧
  U8 o.padding2 ∧
  U32 o.todDelta ∧
  U32 o.wod1 ∧
  U32 o.wod2 ∧
  U32 o.wod3 ∧
  U32 o.wod4 ∧
  U32 o.wod5 ∧
  U32 o.wod6

/-- `o` is in the form a fresh `HighFidelityHAVEQUICKRadio` takes after parsing (/repo/opendis/record/radio/__init__.py:481-510). -/
def HighFidelityHAVEQUICKRadio.Canon (o : HighFidelityHAVEQUICKRadio) : Prop :=
  NetId.Canon o.netId

/-- No single-precision field of `o` is a NaN (/repo/opendis/record/radio/__init__.py:481-510). -/
def HighFidelityHAVEQUICKRadio.NoNaN (o : HighFidelityHAVEQUICKRadio) : Prop :=
  NetId.NoNaN o.netId

/-- Number of bytes that follow type and length (/repo/opendis/record/radio/__init__.py:481-510). -/
def HighFidelityHAVEQUICKRadio.wireSize (_o : HighFidelityHAVEQUICKRadio) : Nat := 34

/-- The part of the record after type and length, in the layout its `parse` expects (/repo/opendis/record/warfare/__init__.py:75-104). -/
def DirectedEnergyDamage.body (o : DirectedEnergyDamage) : W Unit := do
  write_uint16 o.padding
  Vector3Float.serialize o.damageLocation
  write_float32 o.damageDiameter
  write_float32 o.temperature
  write_uint8 o.componentIdentification
  write_uint8 o.componentDamageStatus
  write_uint8 o.componentVisualDamageStatus
  write_uint8 o.componentVisualSmokeColor
  EventIdentifier.serialize o.fireEventID
  write_uint16 o.padding2

/-- The object `s` after it parsed what `o` serialized (/repo/opendis/record/warfare/__init__.py:75-104). -/
def DirectedEnergyDamage.after (s o : DirectedEnergyDamage) : DirectedEnergyDamage :=
  {
    padding := o.padding,
    damageLocation := Vector3Float.after s.damageLocation o.damageLocation,
    damageDiameter := quant o.damageDiameter,
    temperature := quant o.temperature,
    componentIdentification := o.componentIdentification,
    componentDamageStatus := o.componentDamageStatus,
    componentVisualDamageStatus := o.componentVisualDamageStatus,
    componentVisualSmokeColor := o.componentVisualSmokeColor,
    fireEventID := EventIdentifier.after s.fireEventID o.fireEventID,
    padding2 := o.padding2 }

/-- Every field of `o` fits its wire type (/repo/opendis/record/warfare/__init__.py:75-104). -/
def DirectedEnergyDamage.WireOk (o : DirectedEnergyDamage) : Prop :=
  U16 o.padding ∧
  Vector3Float.WireOk o.damageLocation ∧
  F32Fits o.damageDiameter ∧
  F32Fits o.temperature ∧
  U8 o.componentIdentification ∧
  U8 o.componentDamageStatus ∧
  U8 o.componentVisualDamageStatus ∧
  U8 o.componentVisualSmokeColor ∧
  EventIdentifier.WireOk o.fireEventID ∧
  U16 o.padding2

/-- `o` is in the form a fresh `DirectedEnergyDamage` takes after parsing (/repo/opendis/record/warfare/__init__.py:75-104). -/
def DirectedEnergyDamage.Canon (o : DirectedEnergyDamage) : Prop :=
  Vector3Float.Canon o.damageLocation ∧
  quant o.damageDiameter = o.damageDiameter ∧
  quant o.temperature = o.temperature ∧
  EventIdentifier.Canon o.fireEventID

/-- No single-precision field of `o` is a NaN (/repo/opendis/record/warfare/__init__.py:75-104). -/
def DirectedEnergyDamage.NoNaN (o : DirectedEnergyDamage) : Prop :=
  Vector3Float.NoNaN o.damageLocation ∧
  ¬ o.damageDiameter.isNaN ∧
  ¬ o.temperature.isNaN ∧
  EventIdentifier.NoNaN o.fireEventID

/-- Number of bytes that follow type and length (/repo/opendis/record/warfare/__init__.py:75-104). -/
def DirectedEnergyDamage.wireSize (_o : DirectedEnergyDamage) : Nat := 34

/-- The object `s` after it parsed what `o` serialized (/repo/opendis/record/warfare/__init__.py:270-280). -/
def DirectedEnergyTargetEnergyDeposition.after (s o : DirectedEnergyTargetEnergyDeposition) : DirectedEnergyTargetEnergyDeposition :=
  {
    targetEntityID := EntityIdentifier.after s.targetEntityID o.targetEntityID,
    padding := o.padding,
    peakIrradiance := quant o.peakIrradiance }

/-- Every field of `o` fits its wire type (/repo/opendis/record/warfare/__init__.py:270-280). -/
def DirectedEnergyTargetEnergyDeposition.WireOk (o : DirectedEnergyTargetEnergyDeposition) : Prop :=
  EntityIdentifier.WireOk o.targetEntityID ∧
  U16 o.padding ∧
  F32Fits o.peakIrradiance

/-- `o` is in the form a fresh `DirectedEnergyTargetEnergyDeposition` takes after parsing (/repo/opendis/record/warfare/__init__.py:270-280). -/
def DirectedEnergyTargetEnergyDeposition.Canon (o : DirectedEnergyTargetEnergyDeposition) : Prop :=
  EntityIdentifier.Canon o.targetEntityID ∧
  quant o.peakIrradiance = o.peakIrradiance

/-- No single-precision field of `o` is a NaN (/repo/opendis/record/warfare/__init__.py:270-280). -/
def DirectedEnergyTargetEnergyDeposition.NoNaN (o : DirectedEnergyTargetEnergyDeposition) : Prop :=
  EntityIdentifier.NoNaN o.targetEntityID ∧
  ¬ o.peakIrradiance.isNaN

/-- Number of bytes that `serialize` writes (/repo/opendis/record/warfare/__init__.py:270-280). -/
def DirectedEnergyTargetEnergyDeposition.wireSize (_o : DirectedEnergyTargetEnergyDeposition) : Nat := 12

/-- The part of the record after type and length, in the layout its `parse` expects (/repo/opendis/record/warfare/__init__.py:210-248). -/
def DirectedEnergyPrecisionAimpoint.body (o : DirectedEnergyPrecisionAimpoint) : W Unit := do
  write_uint16 o.padding
  WorldCoordinates.serialize o.targetSpotLocation
  Vector3Float.serialize o.targetSpotEntityLocation
  Vector3Float.serialize o.targetSpotVelocity
  Vector3Float.serialize o.targetSpotAcceleration
  EntityIdentifier.serialize o.targetEntityID
  write_uint8 o.targetComponentID
  write_uint8 o.beamSpotType
  write_float32 o.beamSpotCrossSectionSemiMajorAxis
  write_float32 o.beamSpotCrossSectionSemiMinorAxis
  write_float32 o.beamSpotCrossSectionOrientationAngle
  write_float32 o.peakIrradiance
  write_uint32 o.padding2

/-- The object `s` after it parsed what `o` serialized (/repo/opendis/record/warfare/__init__.py:210-248). -/
def DirectedEnergyPrecisionAimpoint.after (s o : DirectedEnergyPrecisionAimpoint) : DirectedEnergyPrecisionAimpoint :=
  {
    padding := o.padding,
    targetSpotLocation := WorldCoordinates.after s.targetSpotLocation o.targetSpotLocation,
    targetSpotEntityLocation := Vector3Float.after s.targetSpotEntityLocation o.targetSpotEntityLocation,
    targetSpotVelocity := Vector3Float.after s.targetSpotVelocity o.targetSpotVelocity,
    targetSpotAcceleration := Vector3Float.after s.targetSpotAcceleration o.targetSpotAcceleration,
    targetEntityID := EntityIdentifier.after s.targetEntityID o.targetEntityID,
    targetComponentID := o.targetComponentID,
    beamSpotType := o.beamSpotType,
    beamSpotCrossSectionSemiMajorAxis := quant o.beamSpotCrossSectionSemiMajorAxis,
    beamSpotCrossSectionSemiMinorAxis := quant o.beamSpotCrossSectionSemiMinorAxis,
    beamSpotCrossSectionOrientationAngle := quant o.beamSpotCrossSectionOrientationAngle,
    peakIrradiance := quant o.peakIrradiance,
    padding2 := o.padding2 }

/-- Every field of `o` fits its wire type (/repo/opendis/record/warfare/__init__.py:210-248). -/
def DirectedEnergyPrecisionAimpoint.WireOk (o : DirectedEnergyPrecisionAimpoint) : Prop :=
  U16 o.padding ∧
  WorldCoordinates.WireOk o.targetSpotLocation ∧
  Vector3Float.WireOk o.targetSpotEntityLocation ∧
  Vector3Float.WireOk o.targetSpotVelocity ∧
  Vector3Float.WireOk o.targetSpotAcceleration ∧
  EntityIdentifier.WireOk o.targetEntityID ∧
  U8 o.targetComponentID ∧
  U8 o.beamSpotType ∧
  F32Fits o.beamSpotCrossSectionSemiMajorAxis ∧
  F32Fits o.beamSpotCrossSectionSemiMinorAxis ∧
  F32Fits o.beamSpotCrossSectionOrientationAngle ∧
  F32Fits o.peakIrradiance ∧
  U32 o.padding2

/-- `o` is in the form a fresh `DirectedEnergyPrecisionAimpoint` takes after parsing (/repo/opendis/record/warfare/__init__.py:210-248). -/
def DirectedEnergyPrecisionAimpoint.Canon (o : DirectedEnergyPrecisionAimpoint) : Prop :=
  WorldCoordinates.Canon o.targetSpotLocation ∧
  Vector3Float.Canon o.targetSpotEntityLocation ∧
  Vector3Float.Canon o.targetSpotVelocity ∧
  Vector3Float.Canon o.targetSpotAcceleration ∧
  EntityIdentifier.Canon o.targetEntityID ∧
  quant o.beamSpotCrossSectionSemiMajorAxis = o.beamSpotCrossSectionSemiMajorAxis ∧
  quant o.beamSpotCrossSectionSemiMinorAxis = o.beamSpotCrossSectionSemiMinorAxis ∧
  quant o.beamSpotCrossSectionOrientationAngle = o.beamSpotCrossSectionOrientationAngle ∧
  quant o.peakIrradiance = o.peakIrradiance

/-- No single-precision field of `o` is a NaN (/repo/opendis/record/warfare/__init__.py:210-248). -/
def DirectedEnergyPrecisionAimpoint.NoNaN (o : DirectedEnergyPrecisionAimpoint) : Prop :=
  WorldCoordinates.NoNaN o.targetSpotLocation ∧
  Vector3Float.NoNaN o.targetSpotEntityLocation ∧
  Vector3Float.NoNaN o.targetSpotVelocity ∧
  Vector3Float.NoNaN o.targetSpotAcceleration ∧
  EntityIdentifier.NoNaN o.targetEntityID ∧
  ¬ o.beamSpotCrossSectionSemiMajorAxis.isNaN ∧
  ¬ o.beamSpotCrossSectionSemiMinorAxis.isNaN ∧
  ¬ o.beamSpotCrossSectionOrientationAngle.isNaN ∧
  ¬ o.peakIrradiance.isNaN

/-- Number of bytes that follow type and length (/repo/opendis/record/warfare/__init__.py:210-248). -/
def DirectedEnergyPrecisionAimpoint.wireSize (_o : DirectedEnergyPrecisionAimpoint) : Nat := 90

end Dis
