import Verif.Model.Warfare
import Verif.Spec.LayoutRadio

/-!
# Wire layouts of the classes of `Verif.Model.Warfare`

Generated by `tools/genlayout.py`.
-/

set_option linter.unusedVariables false

namespace Dis

/-- Layout (/repo/opendis/record/warfare/enums.py:11-32). -/
def DEFireFlags.wire (o : DEFireFlags) : List Slot :=
  [.bits 2 [(1, o.weaponOn), (1, o.stateUpdateFlag), (14, 0)]]

/-- Layout of `DirectedEnergyDamage` on the wire (/repo/opendis/record/warfare/__init__.py:75-88). -/
def DirectedEnergyDamage.wire (o : DirectedEnergyDamage) : List Slot :=
  [StandardVariableRecord.wire DirectedEnergyDamage.recordType o.marshalledSize,
   [.u32 DirectedEnergyDamage.recordType],
   [.u16 o.marshalledSize],
   [.u16 o.padding],
   Vector3Float.wire o.damageLocation,
   [.f32 o.damageDiameter],
   [.f32 o.temperature],
   [.u8 o.componentIdentification],
   [.u8 o.componentDamageStatus],
   [.u8 o.componentVisualDamageStatus],
   [.u8 o.componentVisualSmokeColor],
   EventIdentifier.wire o.fireEventID,
   [.u16 o.padding2]].flatten

/-- Layout of `DirectedEnergyTargetEnergyDeposition` on the wire (/repo/opendis/record/warfare/__init__.py:270-274). -/
def DirectedEnergyTargetEnergyDeposition.wire (o : DirectedEnergyTargetEnergyDeposition) : List Slot :=
  [EntityIdentifier.wire o.targetEntityID,
   [.u16 o.padding],
   [.f32 o.peakIrradiance]].flatten

/-- Layout of `DirectedEnergyAreaAimpoint` on the wire (/repo/opendis/record/warfare/__init__.py:139-152). -/
def DirectedEnergyAreaAimpoint.wire (o : DirectedEnergyAreaAimpoint) : List Slot :=
  [StandardVariableRecord.wire DirectedEnergyAreaAimpoint.recordType o.marshalledSize,
   [.u32 DirectedEnergyAreaAimpoint.recordType],
   [.u16 o.marshalledSize],
   [.u16 o.padding],
   [.u16 o.beamAntennaPatterns.length],
   [.u16 o.directedEnergyTargetEnergyDepositions.length],
   o.beamAntennaPatterns.flatMap BeamAntennaPattern.wire,
   o.directedEnergyTargetEnergyDepositions.flatMap DirectedEnergyTargetEnergyDeposition.wire].flatten

/-- Layout of `DirectedEnergyPrecisionAimpoint` on the wire (/repo/opendis/record/warfare/__init__.py:210-226). -/
def DirectedEnergyPrecisionAimpoint.wire (o : DirectedEnergyPrecisionAimpoint) : List Slot :=
  [StandardVariableRecord.wire DirectedEnergyPrecisionAimpoint.recordType o.marshalledSize,
   [.u32 DirectedEnergyPrecisionAimpoint.recordType],
   [.u16 o.marshalledSize],
   [.u16 o.padding],
   WorldCoordinates.wire o.targetSpotLocation,
   Vector3Float.wire o.targetSpotEntityLocation,
   Vector3Float.wire o.targetSpotVelocity,
   Vector3Float.wire o.targetSpotAcceleration,
   EntityIdentifier.wire o.targetEntityID,
   [.u8 o.targetComponentID],
   [.u8 o.beamSpotType],
   [.f32 o.beamSpotCrossSectionSemiMajorAxis],
   [.f32 o.beamSpotCrossSectionSemiMinorAxis],
   [.f32 o.beamSpotCrossSectionOrientationAngle],
   [.f32 o.peakIrradiance],
   [.u32 o.padding2]].flatten

/-- Layout of `UnknownStandardVariableRecord` on the wire (/repo/opendis/record/__init__.py:58-62). -/
def UnknownStandardVariableRecord.wire (o : UnknownStandardVariableRecord) : List Slot :=
  [StandardVariableRecord.wire o.recordType o.marshalledSize,
   [.u32 o.recordType],
   [.u16 o.marshalledSize],
   [.raw o.data]].flatten

end Dis
