import Verif.Spec.Special

/-!
# Sizes of received messages that hold standard variable records

A received record begins with a 32-bit type and a 16-bit length (six bytes,
/repo/opendis/dis7.py:57-58); the contents follow.
-/

namespace Dis

/-- Bytes of the contents of a received record, after its type and length
(/repo/opendis/record/radio/__init__.py:495-508, /repo/opendis/record/warfare/__init__.py:90-104,
:154-169, :228-246, /repo/opendis/record/__init__.py:64-67). -/
def SVRecord.contentsSize : SVRecord → Nat
  | .highFidelityHAVEQUICKRadio _ => 34
  | .directedEnergyPrecisionAimpoint _ => 90
  | .directedEnergyAreaAimpoint r =>
      6 + 40 * r.beamAntennaPatterns.length + 12 * r.directedEnergyTargetEnergyDepositions.length
  | .directedEnergyDamage _ => 34
  | .unknown r => r.data.length

/-- Bytes of the message that carried the object (/repo/opendis/dis7.py:6666-6677). -/
def EntityDamageStatusPdu.receivedSize (o : EntityDamageStatusPdu) : Nat :=
  36 + (o.damageDescriptions.map fun r => 6 + r.contentsSize).sum

/-- Bytes of the message that carried the object (/repo/opendis/dis7.py:6381-6403). -/
def DirectedEnergyFirePdu.receivedSize (o : DirectedEnergyFirePdu) : Nat :=
  88 + (o.dERecords.map fun r => 6 + r.contentsSize).sum

/-- Bytes of the message that carried the object (/repo/opendis/dis7.py:5052-5116). -/
def TransmitterPdu.receivedSize (o : TransmitterPdu) : Nat :=
  104 + (o.modulationParameters.map ModulationParametersRecord.wireSize).getD 0
    + (o.antennaPattern.map AntennaPatternRecord.wireSize).getD 0
    + (o.variableTransmitterParameters.map fun r => 6 + r.contentsSize).sum

end Dis
