import Verif.Spec.Source
import Verif.Source.EncodeDirected
import Verif.Model.InPlaceSpecial

/-!
# The PDUs with records of several classes, compared with the source
-/

namespace Dis.Src

/-- `DirectedEnergyFirePdu` (/repo/opendis/dis7.py:6318-6403). -/
def Sourced.DirectedEnergyFirePdu : Sourced where
  entry := .DirectedEnergyFirePdu
  cls := I.DirectedEnergyFirePdu
  fields := DirectedEnergyFirePdu.fields
  makes := true

/-- `EntityDamageStatusPdu` (/repo/opendis/dis7.py:6635-6677). -/
def Sourced.EntityDamageStatusPdu : Sourced where
  entry := .EntityDamageStatusPdu
  cls := I.EntityDamageStatusPdu
  fields := EntityDamageStatusPdu.fields
  makes := true

/-- PDUs with records of several classes (/repo/opendis/dis7.py:6318-6403, :6635-6677). -/
def sourced7 : List Sourced :=
  [.DirectedEnergyFirePdu,
   .EntityDamageStatusPdu]

end Dis.Src
