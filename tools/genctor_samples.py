NOEX = set()
HEAD = {
    'Sending': '''import Verif.Props.Factory
import Verif.Spec.Header
import Verif.Proof.Sending

/-!
# C47: what is passed to a PDU constructor arrives at the receiver

Generated by `tools/genctor.py`.
-/

namespace Dis
''',
    'Constructors': '''import Verif.Props.Factory
import Verif.Proof.Sending

/-!
# C48: what is passed to a record constructor arrives at the receiver

Generated by `tools/genctor.py`.
-/

namespace Dis
'''}
EX = {
    'IFFData': 'IFFData.init 2 0 []',
    'VariableDatum': 'VariableDatum.init 2 72 [1, 2, 3, 4, 5, 6, 7, 8, 9]',
    'GridAxisDescriptorVariable': 'GridAxisDescriptorVariable.init 0x3FF8000000000000 0x4000000000000000 2 1 2 0 2 0x3FF8000000000000 0x4000000000000000 []',
    'SilentEntitySystem': 'SilentEntitySystem.init 2 (some (EntityType.init 2 1 2 1 2 1 2)) []',
    'IFFFundamentalParameterData': 'IFFFundamentalParameterData.init 0x3FF8000000000000 0x3FF8000000000000 0x3FF8000000000000 0x3FF8000000000000 2 1 [1, 2, 3]',
    'BeamStatus': 'BeamStatus.init 3',
    'SpreadSpectrum': 'SpreadSpectrum.init true false true 0',
    'DEFireFlags': 'DEFireFlags.init 1 0',
    'IntercomSignalPdu': 'IntercomSignalPdu.init (some (EntityIdentifier.init (some (SimulationAddress.init 2 1)) 1)) 1 2 1 2 1 []',
    'ResupplyReceivedPdu': 'ResupplyReceivedPdu.init (some (EntityIdentifier.init (some (SimulationAddress.init 2 1)) 1)) (some (EntityIdentifier.init (some (SimulationAddress.init 2 1)) 1)) []',
    'RecordQueryReliablePdu': 'RecordQueryReliablePdu.init 2 1 2 1 []',
    'UaPdu': 'UaPdu.init (some (EntityIdentifier.init (some (SimulationAddress.init 2 1)) 1)) (some (EventIdentifier.init (some (SimulationAddress.init 2 1)) 1)) 2 1 2 [] [] []',
    'SeesPdu': 'SeesPdu.init (some (EntityIdentifier.init (some (SimulationAddress.init 2 1)) 1)) 1 2 1 [] []',
    'MinefieldResponseNackPdu': 'MinefieldResponseNackPdu.init (some (EntityIdentifier.init (some (SimulationAddress.init 2 1)) 1)) (some (EntityIdentifier.init (some (SimulationAddress.init 2 1)) 1)) 2 []',
}
