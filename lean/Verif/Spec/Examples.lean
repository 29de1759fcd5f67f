import Verif.Spec.Codec

/-!
# Vocabulary for the example programs
-/

namespace Dis

/-- A double that is sent as a single-precision field is received as `z` (`C04_float_nearest` says that
this is the nearest single; /repo/opendis/stream.py:46-47,126-127). -/
def SentAs (x z : F64) : Prop := ∃ b, (write_float x).Emits b ∧ Reads read_float b z

end Dis
