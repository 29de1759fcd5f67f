import Verif.Proof.HeapClasses5
import Verif.Proof.HeapRecords
import Verif.Proof.InPlaceRecords
import Verif.Model.HeapSpecial
import Verif.Spec.HeapFieldsSpecial

/-!
# Methods on a memory of objects: records modelled by hand

Generated by `tools/genheap.py`.
-/

set_option linter.unusedVariables false
set_option linter.unusedSimpArgs false

namespace Dis

theorem SimulationAddress.sizes :
    Sizes SimulationAddress.members SimulationAddress.marshalledSize SimulationAddress.marshalledSizeHeap := fun _ _ _ _ _ _ => rfl

theorem EntityIdentifier.sizes :
    Sizes EntityIdentifier.members EntityIdentifier.marshalledSize EntityIdentifier.marshalledSizeHeap :=
  .objAdd SimulationAddress.sizes (fun o => by simp [EntityIdentifier.members, attrOf]) 2

theorem NetId.inits (ex : List (String × Tree)) : Inits (fun self => NetId.initHeap self)
      (([("netNumber", .sc .absent), ("frequencyTable", .sc .absent), ("mode", .sc .absent), ("padding", .sc .absent)] : List (String × Tree)) ++ ex)
      (NetId.members {} ++ ex) := by
  unfold NetId.initHeap
  refine .bind (.set' (by simp [attrOf_putAttr_isSome, attrOf, NetId.members])) ?_
  refine .bind (.set' (by simp [attrOf_putAttr_isSome, attrOf, NetId.members])) ?_
  refine .bind (.set' (by simp [attrOf_putAttr_isSome, attrOf, NetId.members])) ?_
  exact .cast (.set' (by simp [attrOf_putAttr_isSome, attrOf, NetId.members]))
    (by simp [putAttr, NetId.members, Tree.ints, Tree.objs, Tree.optInt, Tree.optObj, Tree.intOr, Tree.optFloat])

theorem NetId.makesNew : MakesNew NetId.newHeap (.obj (NetId.members NetId.init)) :=
  .new (.cast (NetId.inits []) (List.append_nil _))

theorem NetId.refines : Refines NetId.members NetId.parseInto NetId.parseHeap := by
  unfold NetId.parseInto NetId.parseHeap
  refine .bind .read fun _ => ?_
  refine .bind (.set' (fun o => by simp [NetId.members, attrOf]) (fun o => by simp [NetId.members, putAttr, Tree.optFloat])) fun _ => ?_
  refine .bind (.set' (fun o => by simp [NetId.members, attrOf]) (fun o => by simp [NetId.members, putAttr, Tree.optFloat])) fun _ => ?_
  refine .bind (.set' (fun o => by simp [NetId.members, attrOf]) (fun o => by simp [NetId.members, putAttr, Tree.optFloat])) fun _ => ?_
  refine .bind (.set' (fun o => by simp [NetId.members, attrOf]) (fun o => by simp [NetId.members, putAttr, Tree.optFloat])) fun _ => ?_
  exact .pure

theorem NetId.shows : Shows NetId.members NetId.serialize NetId.serializeHeap := by
  unfold NetId.serialize NetId.serializeHeap
  exact .putInts fun o => by simp [IntAttrs, NetId.members, attrOf]

theorem SpreadSpectrum.inits (ex : List (String × Tree)) : Inits (fun self => SpreadSpectrum.initHeap self)
      (([("frequencyHopping", .sc .absent), ("pseudoNoise", .sc .absent), ("timeHopping", .sc .absent), ("padding", .sc .absent)] : List (String × Tree)) ++ ex)
      (SpreadSpectrum.members {} ++ ex) := by
  unfold SpreadSpectrum.initHeap
  refine .bind (.set' (by simp [attrOf_putAttr_isSome, attrOf, SpreadSpectrum.members])) ?_
  refine .bind (.set' (by simp [attrOf_putAttr_isSome, attrOf, SpreadSpectrum.members])) ?_
  refine .bind (.set' (by simp [attrOf_putAttr_isSome, attrOf, SpreadSpectrum.members])) ?_
  exact .cast (.set' (by simp [attrOf_putAttr_isSome, attrOf, SpreadSpectrum.members]))
    (by simp [putAttr, SpreadSpectrum.members, Tree.ints, Tree.objs, Tree.optInt, Tree.optObj, Tree.intOr, Tree.optFloat])

theorem SpreadSpectrum.makesNew : MakesNew SpreadSpectrum.newHeap (.obj (SpreadSpectrum.members SpreadSpectrum.init)) :=
  .new (.cast (SpreadSpectrum.inits []) (List.append_nil _))

theorem SpreadSpectrum.refines : Refines SpreadSpectrum.members SpreadSpectrum.parseInto SpreadSpectrum.parseHeap := by
  unfold SpreadSpectrum.parseInto SpreadSpectrum.parseHeap
  refine .bind .read fun _ => ?_
  refine .bind (.set' (fun o => by simp [SpreadSpectrum.members, attrOf]) (fun o => by simp [SpreadSpectrum.members, putAttr, Tree.optFloat])) fun _ => ?_
  refine .bind (.set' (fun o => by simp [SpreadSpectrum.members, attrOf]) (fun o => by simp [SpreadSpectrum.members, putAttr, Tree.optFloat])) fun _ => ?_
  refine .bind (.set' (fun o => by simp [SpreadSpectrum.members, attrOf]) (fun o => by simp [SpreadSpectrum.members, putAttr, Tree.optFloat])) fun _ => ?_
  exact .pure

theorem SpreadSpectrum.shows : Shows SpreadSpectrum.members SpreadSpectrum.serialize SpreadSpectrum.serializeHeap := by
  unfold SpreadSpectrum.serialize SpreadSpectrum.serializeHeap
  exact .putInts fun o => by simp [IntAttrs, SpreadSpectrum.members, attrOf]

theorem ModulationType.inits (ex : List (String × Tree)) : Inits (fun self => ModulationType.initHeap self)
      (([("spreadSpectrum", .sc .absent), ("majorModulation", .sc .absent), ("detail", .sc .absent), ("radioSystem", .sc .absent)] : List (String × Tree)) ++ ex)
      (ModulationType.members {} ++ ex) := by
  unfold ModulationType.initHeap
  refine .bind (.setOr' SpreadSpectrum.makesNew (by simp [attrOf_putAttr_isSome, attrOf, ModulationType.members])) ?_
  refine .bind (.set' (by simp [attrOf_putAttr_isSome, attrOf, ModulationType.members])) ?_
  refine .bind (.set' (by simp [attrOf_putAttr_isSome, attrOf, ModulationType.members])) ?_
  exact .cast (.set' (by simp [attrOf_putAttr_isSome, attrOf, ModulationType.members]))
    (by simp [putAttr, ModulationType.members, Tree.ints, Tree.objs, Tree.optInt, Tree.optObj, Tree.intOr, Tree.optFloat])

theorem ModulationType.makesNew : MakesNew ModulationType.newHeap (.obj (ModulationType.members ModulationType.init)) :=
  .new (.cast (ModulationType.inits []) (List.append_nil _))

theorem ModulationType.refines : Refines ModulationType.members ModulationType.parseInto ModulationType.parseHeap := by
  unfold ModulationType.parseInto ModulationType.parseHeap
  refine .bind (.call' SpreadSpectrum.refines (fun o => by simp [ModulationType.members, attrOf]) (fun o v => by simp [ModulationType.members, putAttr, Tree.optFloat])) fun _ => ?_
  refine .bind .read fun _ => ?_
  refine .bind (.set' (fun o => by simp [ModulationType.members, attrOf]) (fun o => by simp [ModulationType.members, putAttr, Tree.optFloat])) fun _ => ?_
  refine .bind .read fun _ => ?_
  refine .bind (.set' (fun o => by simp [ModulationType.members, attrOf]) (fun o => by simp [ModulationType.members, putAttr, Tree.optFloat])) fun _ => ?_
  refine .bind .read fun _ => ?_
  refine .bind (.set' (fun o => by simp [ModulationType.members, attrOf]) (fun o => by simp [ModulationType.members, putAttr, Tree.optFloat])) fun _ => ?_
  exact .pure

theorem ModulationType.shows : Shows ModulationType.members ModulationType.serialize ModulationType.serializeHeap := by
  unfold ModulationType.serialize ModulationType.serializeHeap
  refine .bind (.call SpreadSpectrum.shows (fun o => by simp [ModulationType.members, attrOf])) ?_
  refine .bind (.putInt (fun o => by simp [ModulationType.members, attrOf])) ?_
  refine .bind (.putInt (fun o => by simp [ModulationType.members, attrOf])) ?_
  exact .putInt (fun o => by simp [ModulationType.members, attrOf])

theorem BeamAntennaPattern.inits (ex : List (String × Tree)) : Inits (fun self => BeamAntennaPattern.initHeap self)
      (([("__class__", .sc (.cls "BeamAntennaPattern")), ("beamDirection", .sc .absent), ("azimuthBeamwidth", .sc .absent), ("elevationBeamwidth", .sc .absent), ("referenceSystem", .sc .absent), ("padding1", .sc .absent), ("padding2", .sc .absent), ("ez", .sc .absent), ("ex", .sc .absent), ("phase", .sc .absent), ("padding3", .sc .absent)] : List (String × Tree)) ++ ex)
      (BeamAntennaPattern.members {} ++ ex) := by
  unfold BeamAntennaPattern.initHeap
  refine .bind (.setOr' EulerAngles.makesNew (by simp [attrOf_putAttr_isSome, attrOf, BeamAntennaPattern.members])) ?_
  refine .bind (.set' (by simp [attrOf_putAttr_isSome, attrOf, BeamAntennaPattern.members])) ?_
  refine .bind (.set' (by simp [attrOf_putAttr_isSome, attrOf, BeamAntennaPattern.members])) ?_
  refine .bind (.set' (by simp [attrOf_putAttr_isSome, attrOf, BeamAntennaPattern.members])) ?_
  refine .bind (.set' (by simp [attrOf_putAttr_isSome, attrOf, BeamAntennaPattern.members])) ?_
  refine .bind (.set' (by simp [attrOf_putAttr_isSome, attrOf, BeamAntennaPattern.members])) ?_
  refine .bind (.set' (by simp [attrOf_putAttr_isSome, attrOf, BeamAntennaPattern.members])) ?_
  refine .bind (.set' (by simp [attrOf_putAttr_isSome, attrOf, BeamAntennaPattern.members])) ?_
  refine .bind (.set' (by simp [attrOf_putAttr_isSome, attrOf, BeamAntennaPattern.members])) ?_
  exact .cast (.set' (by simp [attrOf_putAttr_isSome, attrOf, BeamAntennaPattern.members]))
    (by simp [putAttr, BeamAntennaPattern.members, Tree.ints, Tree.objs, Tree.optInt, Tree.optObj, Tree.intOr, Tree.optFloat])

theorem BeamAntennaPattern.makesNew : MakesNew BeamAntennaPattern.newHeap (.obj (BeamAntennaPattern.members BeamAntennaPattern.init)) :=
  .new (.cast (BeamAntennaPattern.inits []) (List.append_nil _))

theorem BeamAntennaPattern.refines (bytelength : Option Int) : Refines BeamAntennaPattern.members (BeamAntennaPattern.parseInto bytelength) (BeamAntennaPattern.parseHeap bytelength) := by
  unfold BeamAntennaPattern.parseInto BeamAntennaPattern.parseHeap
  refine .bind .read fun _ => ?_
  refine .bind (.call' EulerAngles.refines (fun o => by simp [BeamAntennaPattern.members, attrOf]) (fun o v => by simp [BeamAntennaPattern.members, putAttr, Tree.optFloat])) fun _ => ?_
  refine .bind .read fun _ => ?_
  refine .bind (.set' (fun o => by simp [BeamAntennaPattern.members, attrOf]) (fun o => by simp [BeamAntennaPattern.members, putAttr, Tree.optFloat])) fun _ => ?_
  refine .bind .read fun _ => ?_
  refine .bind (.set' (fun o => by simp [BeamAntennaPattern.members, attrOf]) (fun o => by simp [BeamAntennaPattern.members, putAttr, Tree.optFloat])) fun _ => ?_
  refine .bind .read fun _ => ?_
  refine .bind (.set' (fun o => by simp [BeamAntennaPattern.members, attrOf]) (fun o => by simp [BeamAntennaPattern.members, putAttr, Tree.optFloat])) fun _ => ?_
  refine .bind .read fun _ => ?_
  refine .bind (.set' (fun o => by simp [BeamAntennaPattern.members, attrOf]) (fun o => by simp [BeamAntennaPattern.members, putAttr, Tree.optFloat])) fun _ => ?_
  refine .bind .read fun _ => ?_
  refine .bind (.set' (fun o => by simp [BeamAntennaPattern.members, attrOf]) (fun o => by simp [BeamAntennaPattern.members, putAttr, Tree.optFloat])) fun _ => ?_
  refine .bind .read fun _ => ?_
  refine .bind (.set' (fun o => by simp [BeamAntennaPattern.members, attrOf]) (fun o => by simp [BeamAntennaPattern.members, putAttr, Tree.optFloat])) fun _ => ?_
  refine .bind .read fun _ => ?_
  refine .bind (.set' (fun o => by simp [BeamAntennaPattern.members, attrOf]) (fun o => by simp [BeamAntennaPattern.members, putAttr, Tree.optFloat])) fun _ => ?_
  refine .bind .read fun _ => ?_
  refine .bind (.set' (fun o => by simp [BeamAntennaPattern.members, attrOf]) (fun o => by simp [BeamAntennaPattern.members, putAttr, Tree.optFloat])) fun _ => ?_
  refine .bind .read fun _ => ?_
  refine .bind (.set' (fun o => by simp [BeamAntennaPattern.members, attrOf]) (fun o => by simp [BeamAntennaPattern.members, putAttr, Tree.optFloat])) fun _ => ?_
  exact .pure

theorem BeamAntennaPattern.sizes : Sizes BeamAntennaPattern.members BeamAntennaPattern.marshalledSize BeamAntennaPattern.marshalledSizeHeap := fun _ _ _ _ _ _ => rfl

theorem BeamAntennaPattern.shows : Shows BeamAntennaPattern.members BeamAntennaPattern.serialize BeamAntennaPattern.serializeHeap := by
  unfold BeamAntennaPattern.serialize BeamAntennaPattern.serializeHeap
  refine .bind (.call EulerAngles.shows (fun o => by simp [BeamAntennaPattern.members, attrOf])) ?_
  refine .bind (.putFloat (fun o => by simp [BeamAntennaPattern.members, attrOf])) ?_
  refine .bind (.putFloat (fun o => by simp [BeamAntennaPattern.members, attrOf])) ?_
  refine .bind (.putInt (fun o => by simp [BeamAntennaPattern.members, attrOf])) ?_
  refine .bind (.putInt (fun o => by simp [BeamAntennaPattern.members, attrOf])) ?_
  refine .bind (.putInt (fun o => by simp [BeamAntennaPattern.members, attrOf])) ?_
  refine .bind (.putFloat (fun o => by simp [BeamAntennaPattern.members, attrOf])) ?_
  refine .bind (.putFloat (fun o => by simp [BeamAntennaPattern.members, attrOf])) ?_
  refine .bind (.putFloat (fun o => by simp [BeamAntennaPattern.members, attrOf])) ?_
  exact .putInt (fun o => by simp [BeamAntennaPattern.members, attrOf])

theorem BasicHaveQuickMP.inits (ex : List (String × Tree)) : Inits (fun self => BasicHaveQuickMP.initHeap self)
      (([("__class__", .sc (.cls "BasicHaveQuickMP")), ("net_id", .sc .absent), ("mwod_index", .sc .absent), ("reserved16", .sc .absent), ("reserved8_1", .sc .absent), ("reserved8_2", .sc .absent), ("time_of_day", .sc .absent), ("padding", .sc .absent)] : List (String × Tree)) ++ ex)
      (BasicHaveQuickMP.members {} ++ ex) := by
  unfold BasicHaveQuickMP.initHeap
  refine .bind (.setOr' NetId.makesNew (by simp [attrOf_putAttr_isSome, attrOf, BasicHaveQuickMP.members])) ?_
  refine .bind (.set' (by simp [attrOf_putAttr_isSome, attrOf, BasicHaveQuickMP.members])) ?_
  refine .bind (.set' (by simp [attrOf_putAttr_isSome, attrOf, BasicHaveQuickMP.members])) ?_
  refine .bind (.set' (by simp [attrOf_putAttr_isSome, attrOf, BasicHaveQuickMP.members])) ?_
  refine .bind (.set' (by simp [attrOf_putAttr_isSome, attrOf, BasicHaveQuickMP.members])) ?_
  refine .bind (.set' (by simp [attrOf_putAttr_isSome, attrOf, BasicHaveQuickMP.members])) ?_
  exact .cast (.set' (by simp [attrOf_putAttr_isSome, attrOf, BasicHaveQuickMP.members]))
    (by simp [putAttr, BasicHaveQuickMP.members, Tree.ints, Tree.objs, Tree.optInt, Tree.optObj, Tree.intOr, Tree.optFloat])

theorem BasicHaveQuickMP.makesNew : MakesNew BasicHaveQuickMP.newHeap (.obj (BasicHaveQuickMP.members BasicHaveQuickMP.init)) :=
  .new (.cast (BasicHaveQuickMP.inits []) (List.append_nil _))

theorem BasicHaveQuickMP.refines (bytelength : Option Int) : Refines BasicHaveQuickMP.members (BasicHaveQuickMP.parseInto bytelength) (BasicHaveQuickMP.parseHeap bytelength) := by
  unfold BasicHaveQuickMP.parseInto BasicHaveQuickMP.parseHeap
  refine .bind .read fun _ => ?_
  refine .bind (.call' NetId.refines (fun o => by simp [BasicHaveQuickMP.members, attrOf]) (fun o v => by simp [BasicHaveQuickMP.members, putAttr, Tree.optFloat])) fun _ => ?_
  refine .bind .read fun _ => ?_
  refine .bind (.set' (fun o => by simp [BasicHaveQuickMP.members, attrOf]) (fun o => by simp [BasicHaveQuickMP.members, putAttr, Tree.optFloat])) fun _ => ?_
  refine .bind .read fun _ => ?_
  refine .bind (.set' (fun o => by simp [BasicHaveQuickMP.members, attrOf]) (fun o => by simp [BasicHaveQuickMP.members, putAttr, Tree.optFloat])) fun _ => ?_
  refine .bind .read fun _ => ?_
  refine .bind (.set' (fun o => by simp [BasicHaveQuickMP.members, attrOf]) (fun o => by simp [BasicHaveQuickMP.members, putAttr, Tree.optFloat])) fun _ => ?_
  refine .bind .read fun _ => ?_
  refine .bind (.set' (fun o => by simp [BasicHaveQuickMP.members, attrOf]) (fun o => by simp [BasicHaveQuickMP.members, putAttr, Tree.optFloat])) fun _ => ?_
  refine .bind .read fun _ => ?_
  refine .bind (.set' (fun o => by simp [BasicHaveQuickMP.members, attrOf]) (fun o => by simp [BasicHaveQuickMP.members, putAttr, Tree.optFloat])) fun _ => ?_
  refine .bind .read fun _ => ?_
  refine .bind (.set' (fun o => by simp [BasicHaveQuickMP.members, attrOf]) (fun o => by simp [BasicHaveQuickMP.members, putAttr, Tree.optFloat])) fun _ => ?_
  exact .pure

theorem BasicHaveQuickMP.shows : Shows BasicHaveQuickMP.members BasicHaveQuickMP.serialize BasicHaveQuickMP.serializeHeap := by
  unfold BasicHaveQuickMP.serialize BasicHaveQuickMP.serializeHeap
  refine .bind (.call NetId.shows (fun o => by simp [BasicHaveQuickMP.members, attrOf])) ?_
  refine .bind (.putInt (fun o => by simp [BasicHaveQuickMP.members, attrOf])) ?_
  refine .bind (.putInt (fun o => by simp [BasicHaveQuickMP.members, attrOf])) ?_
  refine .bind (.putInt (fun o => by simp [BasicHaveQuickMP.members, attrOf])) ?_
  refine .bind (.putInt (fun o => by simp [BasicHaveQuickMP.members, attrOf])) ?_
  refine .bind (.putInt (fun o => by simp [BasicHaveQuickMP.members, attrOf])) ?_
  exact .putInt (fun o => by simp [BasicHaveQuickMP.members, attrOf])

theorem CCTTSincgarsMP.inits (ex : List (String × Tree)) : Inits (fun self => CCTTSincgarsMP.initHeap self)
      (([("__class__", .sc (.cls "CCTTSincgarsMP")), ("fh_net_id", .sc .absent), ("hop_set_id", .sc .absent), ("lockout_set_id", .sc .absent), ("start_of_message", .sc .absent), ("clear_channel", .sc .absent), ("fh_sync_time_offset", .sc .absent), ("transmission_security_key", .sc .absent), ("padding", .sc .absent)] : List (String × Tree)) ++ ex)
      (CCTTSincgarsMP.members {} ++ ex) := by
  unfold CCTTSincgarsMP.initHeap
  refine .bind (.set' (by simp [attrOf_putAttr_isSome, attrOf, CCTTSincgarsMP.members])) ?_
  refine .bind (.set' (by simp [attrOf_putAttr_isSome, attrOf, CCTTSincgarsMP.members])) ?_
  refine .bind (.set' (by simp [attrOf_putAttr_isSome, attrOf, CCTTSincgarsMP.members])) ?_
  refine .bind (.set' (by simp [attrOf_putAttr_isSome, attrOf, CCTTSincgarsMP.members])) ?_
  refine .bind (.set' (by simp [attrOf_putAttr_isSome, attrOf, CCTTSincgarsMP.members])) ?_
  refine .bind (.set' (by simp [attrOf_putAttr_isSome, attrOf, CCTTSincgarsMP.members])) ?_
  refine .bind (.set' (by simp [attrOf_putAttr_isSome, attrOf, CCTTSincgarsMP.members])) ?_
  exact .cast (.set' (by simp [attrOf_putAttr_isSome, attrOf, CCTTSincgarsMP.members]))
    (by simp [putAttr, CCTTSincgarsMP.members, Tree.ints, Tree.objs, Tree.optInt, Tree.optObj, Tree.intOr, Tree.optFloat])

theorem CCTTSincgarsMP.makesNew : MakesNew CCTTSincgarsMP.newHeap (.obj (CCTTSincgarsMP.members CCTTSincgarsMP.init)) :=
  .new (.cast (CCTTSincgarsMP.inits []) (List.append_nil _))

theorem CCTTSincgarsMP.refines (bytelength : Option Int) : Refines CCTTSincgarsMP.members (CCTTSincgarsMP.parseInto bytelength) (CCTTSincgarsMP.parseHeap bytelength) := by
  unfold CCTTSincgarsMP.parseInto CCTTSincgarsMP.parseHeap
  refine .bind .read fun _ => ?_
  refine .bind .read fun _ => ?_
  refine .bind (.set' (fun o => by simp [CCTTSincgarsMP.members, attrOf]) (fun o => by simp [CCTTSincgarsMP.members, putAttr, Tree.optFloat])) fun _ => ?_
  refine .bind .read fun _ => ?_
  refine .bind (.set' (fun o => by simp [CCTTSincgarsMP.members, attrOf]) (fun o => by simp [CCTTSincgarsMP.members, putAttr, Tree.optFloat])) fun _ => ?_
  refine .bind .read fun _ => ?_
  refine .bind (.set' (fun o => by simp [CCTTSincgarsMP.members, attrOf]) (fun o => by simp [CCTTSincgarsMP.members, putAttr, Tree.optFloat])) fun _ => ?_
  refine .bind .read fun _ => ?_
  refine .bind (.set' (fun o => by simp [CCTTSincgarsMP.members, attrOf]) (fun o => by simp [CCTTSincgarsMP.members, putAttr, Tree.optFloat])) fun _ => ?_
  refine .bind .read fun _ => ?_
  refine .bind (.set' (fun o => by simp [CCTTSincgarsMP.members, attrOf]) (fun o => by simp [CCTTSincgarsMP.members, putAttr, Tree.optFloat])) fun _ => ?_
  refine .bind .read fun _ => ?_
  refine .bind (.set' (fun o => by simp [CCTTSincgarsMP.members, attrOf]) (fun o => by simp [CCTTSincgarsMP.members, putAttr, Tree.optFloat])) fun _ => ?_
  refine .bind .read fun _ => ?_
  refine .bind (.set' (fun o => by simp [CCTTSincgarsMP.members, attrOf]) (fun o => by simp [CCTTSincgarsMP.members, putAttr, Tree.optFloat])) fun _ => ?_
  refine .bind .read fun _ => ?_
  refine .bind (.set' (fun o => by simp [CCTTSincgarsMP.members, attrOf]) (fun o => by simp [CCTTSincgarsMP.members, putAttr, Tree.optFloat])) fun _ => ?_
  exact .pure

theorem CCTTSincgarsMP.shows : Shows CCTTSincgarsMP.members CCTTSincgarsMP.serialize CCTTSincgarsMP.serializeHeap := by
  unfold CCTTSincgarsMP.serialize CCTTSincgarsMP.serializeHeap
  refine .bind (.putInt (fun o => by simp [CCTTSincgarsMP.members, attrOf])) ?_
  refine .bind (.putInt (fun o => by simp [CCTTSincgarsMP.members, attrOf])) ?_
  refine .bind (.putInt (fun o => by simp [CCTTSincgarsMP.members, attrOf])) ?_
  refine .bind (.putInt (fun o => by simp [CCTTSincgarsMP.members, attrOf])) ?_
  refine .bind (.putInt (fun o => by simp [CCTTSincgarsMP.members, attrOf])) ?_
  refine .bind (.putInt (fun o => by simp [CCTTSincgarsMP.members, attrOf])) ?_
  refine .bind (.putInt (fun o => by simp [CCTTSincgarsMP.members, attrOf])) ?_
  exact .putInt (fun o => by simp [CCTTSincgarsMP.members, attrOf])

theorem HighFidelityHAVEQUICKRadio.inits (ex : List (String × Tree)) : Inits (fun self => HighFidelityHAVEQUICKRadio.initHeap self)
      (([("__class__", .sc (.cls "HighFidelityHAVEQUICKRadio")), ("padding1", .sc .absent), ("netId", .sc .absent), ("todTransmitIndicator", .sc .absent), ("padding2", .sc .absent), ("todDelta", .sc .absent), ("wod1", .sc .absent), ("wod2", .sc .absent), ("wod3", .sc .absent), ("wod4", .sc .absent), ("wod5", .sc .absent), ("wod6", .sc .absent)] : List (String × Tree)) ++ ex)
      (HighFidelityHAVEQUICKRadio.members {} ++ ex) := by
  unfold HighFidelityHAVEQUICKRadio.initHeap
  refine .bind (.set' (by simp [attrOf_putAttr_isSome, attrOf, HighFidelityHAVEQUICKRadio.members])) ?_
  refine .bind (.setOr' NetId.makesNew (by simp [attrOf_putAttr_isSome, attrOf, HighFidelityHAVEQUICKRadio.members])) ?_
  refine .bind (.set' (by simp [attrOf_putAttr_isSome, attrOf, HighFidelityHAVEQUICKRadio.members])) ?_
  refine .bind (.set' (by simp [attrOf_putAttr_isSome, attrOf, HighFidelityHAVEQUICKRadio.members])) ?_
  refine .bind (.set' (by simp [attrOf_putAttr_isSome, attrOf, HighFidelityHAVEQUICKRadio.members])) ?_
  refine .bind (.set' (by simp [attrOf_putAttr_isSome, attrOf, HighFidelityHAVEQUICKRadio.members])) ?_
  refine .bind (.set' (by simp [attrOf_putAttr_isSome, attrOf, HighFidelityHAVEQUICKRadio.members])) ?_
  refine .bind (.set' (by simp [attrOf_putAttr_isSome, attrOf, HighFidelityHAVEQUICKRadio.members])) ?_
  refine .bind (.set' (by simp [attrOf_putAttr_isSome, attrOf, HighFidelityHAVEQUICKRadio.members])) ?_
  refine .bind (.set' (by simp [attrOf_putAttr_isSome, attrOf, HighFidelityHAVEQUICKRadio.members])) ?_
  exact .cast (.set' (by simp [attrOf_putAttr_isSome, attrOf, HighFidelityHAVEQUICKRadio.members]))
    (by simp [putAttr, HighFidelityHAVEQUICKRadio.members, Tree.ints, Tree.objs, Tree.optInt, Tree.optObj, Tree.intOr, Tree.optFloat])

theorem HighFidelityHAVEQUICKRadio.makesNew : MakesNew HighFidelityHAVEQUICKRadio.newHeap (.obj (HighFidelityHAVEQUICKRadio.members HighFidelityHAVEQUICKRadio.init)) :=
  .new (.cast (HighFidelityHAVEQUICKRadio.inits []) (List.append_nil _))

theorem HighFidelityHAVEQUICKRadio.refines (bytelength : Int) : Refines HighFidelityHAVEQUICKRadio.members (HighFidelityHAVEQUICKRadio.parseInto bytelength) (HighFidelityHAVEQUICKRadio.parseHeap bytelength) := by
  unfold HighFidelityHAVEQUICKRadio.parseInto HighFidelityHAVEQUICKRadio.parseHeap
  refine .bind .read fun _ => ?_
  refine .bind .read fun _ => ?_
  refine .bind (.set' (fun o => by simp [HighFidelityHAVEQUICKRadio.members, attrOf]) (fun o => by simp [HighFidelityHAVEQUICKRadio.members, putAttr, Tree.optFloat])) fun _ => ?_
  refine .bind (.call' NetId.refines (fun o => by simp [HighFidelityHAVEQUICKRadio.members, attrOf]) (fun o v => by simp [HighFidelityHAVEQUICKRadio.members, putAttr, Tree.optFloat])) fun _ => ?_
  refine .bind .read fun _ => ?_
  refine .bind (.set' (fun o => by simp [HighFidelityHAVEQUICKRadio.members, attrOf]) (fun o => by simp [HighFidelityHAVEQUICKRadio.members, putAttr, Tree.optFloat])) fun _ => ?_
  refine .bind .read fun _ => ?_
  refine .bind (.set' (fun o => by simp [HighFidelityHAVEQUICKRadio.members, attrOf]) (fun o => by simp [HighFidelityHAVEQUICKRadio.members, putAttr, Tree.optFloat])) fun _ => ?_
  refine .bind .read fun _ => ?_
  refine .bind (.set' (fun o => by simp [HighFidelityHAVEQUICKRadio.members, attrOf]) (fun o => by simp [HighFidelityHAVEQUICKRadio.members, putAttr, Tree.optFloat])) fun _ => ?_
  refine .bind .read fun _ => ?_
  refine .bind (.set' (fun o => by simp [HighFidelityHAVEQUICKRadio.members, attrOf]) (fun o => by simp [HighFidelityHAVEQUICKRadio.members, putAttr, Tree.optFloat])) fun _ => ?_
  refine .bind .read fun _ => ?_
  refine .bind (.set' (fun o => by simp [HighFidelityHAVEQUICKRadio.members, attrOf]) (fun o => by simp [HighFidelityHAVEQUICKRadio.members, putAttr, Tree.optFloat])) fun _ => ?_
  refine .bind .read fun _ => ?_
  refine .bind (.set' (fun o => by simp [HighFidelityHAVEQUICKRadio.members, attrOf]) (fun o => by simp [HighFidelityHAVEQUICKRadio.members, putAttr, Tree.optFloat])) fun _ => ?_
  refine .bind .read fun _ => ?_
  refine .bind (.set' (fun o => by simp [HighFidelityHAVEQUICKRadio.members, attrOf]) (fun o => by simp [HighFidelityHAVEQUICKRadio.members, putAttr, Tree.optFloat])) fun _ => ?_
  refine .bind .read fun _ => ?_
  refine .bind (.set' (fun o => by simp [HighFidelityHAVEQUICKRadio.members, attrOf]) (fun o => by simp [HighFidelityHAVEQUICKRadio.members, putAttr, Tree.optFloat])) fun _ => ?_
  refine .bind .read fun _ => ?_
  refine .bind (.set' (fun o => by simp [HighFidelityHAVEQUICKRadio.members, attrOf]) (fun o => by simp [HighFidelityHAVEQUICKRadio.members, putAttr, Tree.optFloat])) fun _ => ?_
  exact .pure

theorem HighFidelityHAVEQUICKRadio.shows : Shows HighFidelityHAVEQUICKRadio.members HighFidelityHAVEQUICKRadio.serialize HighFidelityHAVEQUICKRadio.serializeHeap := by
  unfold HighFidelityHAVEQUICKRadio.serialize HighFidelityHAVEQUICKRadio.serializeHeap
  unfold StandardVariableRecord.serialize
  refine .bind (.bind (.write) (.write)) ?_
  refine .bind (.putInt (fun o => by simp [HighFidelityHAVEQUICKRadio.members, attrOf])) ?_
  refine .bind (.call NetId.shows (fun o => by simp [HighFidelityHAVEQUICKRadio.members, attrOf])) ?_
  refine .bind (.putInt (fun o => by simp [HighFidelityHAVEQUICKRadio.members, attrOf])) ?_
  refine .bind (.putInt (fun o => by simp [HighFidelityHAVEQUICKRadio.members, attrOf])) ?_
  refine .bind (.putInt (fun o => by simp [HighFidelityHAVEQUICKRadio.members, attrOf])) ?_
  refine .bind (.putInt (fun o => by simp [HighFidelityHAVEQUICKRadio.members, attrOf])) ?_
  refine .bind (.putInt (fun o => by simp [HighFidelityHAVEQUICKRadio.members, attrOf])) ?_
  refine .bind (.putInt (fun o => by simp [HighFidelityHAVEQUICKRadio.members, attrOf])) ?_
  refine .bind (.putInt (fun o => by simp [HighFidelityHAVEQUICKRadio.members, attrOf])) ?_
  refine .bind (.putInt (fun o => by simp [HighFidelityHAVEQUICKRadio.members, attrOf])) ?_
  exact .putInt (fun o => by simp [HighFidelityHAVEQUICKRadio.members, attrOf])

theorem DEFireFlags.inits (ex : List (String × Tree)) : Inits (fun self => DEFireFlags.initHeap self)
      (([("weaponOn", .sc .absent), ("stateUpdateFlag", .sc .absent), ("padding", .sc .absent)] : List (String × Tree)) ++ ex)
      (DEFireFlags.members {} ++ ex) := by
  unfold DEFireFlags.initHeap
  refine .bind (.set' (by simp [attrOf_putAttr_isSome, attrOf, DEFireFlags.members])) ?_
  refine .bind (.set' (by simp [attrOf_putAttr_isSome, attrOf, DEFireFlags.members])) ?_
  exact .cast (.set' (by simp [attrOf_putAttr_isSome, attrOf, DEFireFlags.members]))
    (by simp [putAttr, DEFireFlags.members, Tree.ints, Tree.objs, Tree.optInt, Tree.optObj, Tree.intOr, Tree.optFloat])

theorem DEFireFlags.makesNew : MakesNew DEFireFlags.newHeap (.obj (DEFireFlags.members DEFireFlags.init)) :=
  .new (.cast (DEFireFlags.inits []) (List.append_nil _))

theorem DEFireFlags.refines : Refines DEFireFlags.members DEFireFlags.parseInto DEFireFlags.parseHeap := by
  unfold DEFireFlags.parseInto DEFireFlags.parseHeap
  refine .bind .read fun _ => ?_
  refine .bind (.set' (fun o => by simp [DEFireFlags.members, attrOf]) (fun o => by simp [DEFireFlags.members, putAttr, Tree.optFloat])) fun _ => ?_
  refine .bind (.set' (fun o => by simp [DEFireFlags.members, attrOf]) (fun o => by simp [DEFireFlags.members, putAttr, Tree.optFloat])) fun _ => ?_
  refine .bind (.set' (fun o => by simp [DEFireFlags.members, attrOf]) (fun o => by simp [DEFireFlags.members, putAttr, Tree.optFloat])) fun _ => ?_
  exact .pure

theorem DEFireFlags.shows : Shows DEFireFlags.members DEFireFlags.serialize DEFireFlags.serializeHeap := by
  unfold DEFireFlags.serialize DEFireFlags.serializeHeap
  exact .putInts fun o => by simp [IntAttrs, DEFireFlags.members, attrOf]

theorem DirectedEnergyTargetEnergyDeposition.inits (ex : List (String × Tree)) : Inits (fun self => DirectedEnergyTargetEnergyDeposition.initHeap self)
      (([("targetEntityID", .sc .absent), ("padding", .sc .absent), ("peakIrradiance", .sc .absent)] : List (String × Tree)) ++ ex)
      (DirectedEnergyTargetEnergyDeposition.members {} ++ ex) := by
  unfold DirectedEnergyTargetEnergyDeposition.initHeap
  refine .bind (.setOr' EntityIdentifier.makesNew (by simp [attrOf_putAttr_isSome, attrOf, DirectedEnergyTargetEnergyDeposition.members])) ?_
  refine .bind (.set' (by simp [attrOf_putAttr_isSome, attrOf, DirectedEnergyTargetEnergyDeposition.members])) ?_
  exact .cast (.set' (by simp [attrOf_putAttr_isSome, attrOf, DirectedEnergyTargetEnergyDeposition.members]))
    (by simp [putAttr, DirectedEnergyTargetEnergyDeposition.members, Tree.ints, Tree.objs, Tree.optInt, Tree.optObj, Tree.intOr, Tree.optFloat])

theorem DirectedEnergyTargetEnergyDeposition.makesNew : MakesNew DirectedEnergyTargetEnergyDeposition.newHeap (.obj (DirectedEnergyTargetEnergyDeposition.members DirectedEnergyTargetEnergyDeposition.init)) :=
  .new (.cast (DirectedEnergyTargetEnergyDeposition.inits []) (List.append_nil _))

theorem DirectedEnergyTargetEnergyDeposition.refines : Refines DirectedEnergyTargetEnergyDeposition.members DirectedEnergyTargetEnergyDeposition.parseInto DirectedEnergyTargetEnergyDeposition.parseHeap := by
  unfold DirectedEnergyTargetEnergyDeposition.parseInto DirectedEnergyTargetEnergyDeposition.parseHeap
  refine .bind (.call' EntityIdentifier.refines (fun o => by simp [DirectedEnergyTargetEnergyDeposition.members, attrOf]) (fun o v => by simp [DirectedEnergyTargetEnergyDeposition.members, putAttr, Tree.optFloat])) fun _ => ?_
  refine .bind .read fun _ => ?_
  refine .bind (.set' (fun o => by simp [DirectedEnergyTargetEnergyDeposition.members, attrOf]) (fun o => by simp [DirectedEnergyTargetEnergyDeposition.members, putAttr, Tree.optFloat])) fun _ => ?_
  refine .bind .read fun _ => ?_
  refine .bind (.set' (fun o => by simp [DirectedEnergyTargetEnergyDeposition.members, attrOf]) (fun o => by simp [DirectedEnergyTargetEnergyDeposition.members, putAttr, Tree.optFloat])) fun _ => ?_
  exact .pure

theorem DirectedEnergyTargetEnergyDeposition.sizes : Sizes DirectedEnergyTargetEnergyDeposition.members DirectedEnergyTargetEnergyDeposition.marshalledSize DirectedEnergyTargetEnergyDeposition.marshalledSizeHeap :=
  .objAdd EntityIdentifier.sizes (fun o => by simp [DirectedEnergyTargetEnergyDeposition.members, attrOf]) 6

theorem DirectedEnergyTargetEnergyDeposition.shows : Shows DirectedEnergyTargetEnergyDeposition.members DirectedEnergyTargetEnergyDeposition.serialize DirectedEnergyTargetEnergyDeposition.serializeHeap := by
  unfold DirectedEnergyTargetEnergyDeposition.serialize DirectedEnergyTargetEnergyDeposition.serializeHeap
  refine .bind (.call EntityIdentifier.shows (fun o => by simp [DirectedEnergyTargetEnergyDeposition.members, attrOf])) ?_
  refine .bind (.putInt (fun o => by simp [DirectedEnergyTargetEnergyDeposition.members, attrOf])) ?_
  exact .putFloat (fun o => by simp [DirectedEnergyTargetEnergyDeposition.members, attrOf])

theorem DirectedEnergyDamage.inits (ex : List (String × Tree)) : Inits (fun self => DirectedEnergyDamage.initHeap self)
      (([("__class__", .sc (.cls "DirectedEnergyDamage")), ("padding", .sc .absent), ("damageLocation", .sc .absent), ("damageDiameter", .sc .absent), ("temperature", .sc .absent), ("componentIdentification", .sc .absent), ("componentDamageStatus", .sc .absent), ("componentVisualDamageStatus", .sc .absent), ("componentVisualSmokeColor", .sc .absent), ("fireEventID", .sc .absent), ("padding2", .sc .absent)] : List (String × Tree)) ++ ex)
      (DirectedEnergyDamage.members {} ++ ex) := by
  unfold DirectedEnergyDamage.initHeap
  refine .bind (.set' (by simp [attrOf_putAttr_isSome, attrOf, DirectedEnergyDamage.members])) ?_
  refine .bind (.setOr' Vector3Float.makesNew (by simp [attrOf_putAttr_isSome, attrOf, DirectedEnergyDamage.members])) ?_
  refine .bind (.set' (by simp [attrOf_putAttr_isSome, attrOf, DirectedEnergyDamage.members])) ?_
  refine .bind (.set' (by simp [attrOf_putAttr_isSome, attrOf, DirectedEnergyDamage.members])) ?_
  refine .bind (.set' (by simp [attrOf_putAttr_isSome, attrOf, DirectedEnergyDamage.members])) ?_
  refine .bind (.set' (by simp [attrOf_putAttr_isSome, attrOf, DirectedEnergyDamage.members])) ?_
  refine .bind (.set' (by simp [attrOf_putAttr_isSome, attrOf, DirectedEnergyDamage.members])) ?_
  refine .bind (.set' (by simp [attrOf_putAttr_isSome, attrOf, DirectedEnergyDamage.members])) ?_
  refine .bind (.setOr' EventIdentifier.makesNew (by simp [attrOf_putAttr_isSome, attrOf, DirectedEnergyDamage.members])) ?_
  exact .cast (.set' (by simp [attrOf_putAttr_isSome, attrOf, DirectedEnergyDamage.members]))
    (by simp [putAttr, DirectedEnergyDamage.members, Tree.ints, Tree.objs, Tree.optInt, Tree.optObj, Tree.intOr, Tree.optFloat])

theorem DirectedEnergyDamage.makesNew : MakesNew DirectedEnergyDamage.newHeap (.obj (DirectedEnergyDamage.members DirectedEnergyDamage.init)) :=
  .new (.cast (DirectedEnergyDamage.inits []) (List.append_nil _))

theorem DirectedEnergyDamage.refines (bytelength : Int) : Refines DirectedEnergyDamage.members (DirectedEnergyDamage.parseInto bytelength) (DirectedEnergyDamage.parseHeap bytelength) := by
  unfold DirectedEnergyDamage.parseInto DirectedEnergyDamage.parseHeap
  refine .bind .read fun _ => ?_
  refine .bind .read fun _ => ?_
  refine .bind (.set' (fun o => by simp [DirectedEnergyDamage.members, attrOf]) (fun o => by simp [DirectedEnergyDamage.members, putAttr, Tree.optFloat])) fun _ => ?_
  refine .bind (.call' Vector3Float.refines (fun o => by simp [DirectedEnergyDamage.members, attrOf]) (fun o v => by simp [DirectedEnergyDamage.members, putAttr, Tree.optFloat])) fun _ => ?_
  refine .bind .read fun _ => ?_
  refine .bind (.set' (fun o => by simp [DirectedEnergyDamage.members, attrOf]) (fun o => by simp [DirectedEnergyDamage.members, putAttr, Tree.optFloat])) fun _ => ?_
  refine .bind .read fun _ => ?_
  refine .bind (.set' (fun o => by simp [DirectedEnergyDamage.members, attrOf]) (fun o => by simp [DirectedEnergyDamage.members, putAttr, Tree.optFloat])) fun _ => ?_
  refine .bind .read fun _ => ?_
  refine .bind (.set' (fun o => by simp [DirectedEnergyDamage.members, attrOf]) (fun o => by simp [DirectedEnergyDamage.members, putAttr, Tree.optFloat])) fun _ => ?_
  refine .bind .read fun _ => ?_
  refine .bind (.set' (fun o => by simp [DirectedEnergyDamage.members, attrOf]) (fun o => by simp [DirectedEnergyDamage.members, putAttr, Tree.optFloat])) fun _ => ?_
  refine .bind .read fun _ => ?_
  refine .bind (.set' (fun o => by simp [DirectedEnergyDamage.members, attrOf]) (fun o => by simp [DirectedEnergyDamage.members, putAttr, Tree.optFloat])) fun _ => ?_
  refine .bind .read fun _ => ?_
  refine .bind (.set' (fun o => by simp [DirectedEnergyDamage.members, attrOf]) (fun o => by simp [DirectedEnergyDamage.members, putAttr, Tree.optFloat])) fun _ => ?_
  refine .bind (.call' EventIdentifier.refines (fun o => by simp [DirectedEnergyDamage.members, attrOf]) (fun o v => by simp [DirectedEnergyDamage.members, putAttr, Tree.optFloat])) fun _ => ?_
  refine .bind .read fun _ => ?_
  refine .bind (.set' (fun o => by simp [DirectedEnergyDamage.members, attrOf]) (fun o => by simp [DirectedEnergyDamage.members, putAttr, Tree.optFloat])) fun _ => ?_
  exact .pure

theorem DirectedEnergyDamage.shows : Shows DirectedEnergyDamage.members DirectedEnergyDamage.serialize DirectedEnergyDamage.serializeHeap := by
  unfold DirectedEnergyDamage.serialize DirectedEnergyDamage.serializeHeap
  unfold StandardVariableRecord.serialize
  refine .bind (.bind (.write) (.write)) ?_
  refine .bind (.write) ?_
  refine .bind (.write) ?_
  refine .bind (.putInt (fun o => by simp [DirectedEnergyDamage.members, attrOf])) ?_
  refine .bind (.call Vector3Float.shows (fun o => by simp [DirectedEnergyDamage.members, attrOf])) ?_
  refine .bind (.putFloat (fun o => by simp [DirectedEnergyDamage.members, attrOf])) ?_
  refine .bind (.putFloat (fun o => by simp [DirectedEnergyDamage.members, attrOf])) ?_
  refine .bind (.putInt (fun o => by simp [DirectedEnergyDamage.members, attrOf])) ?_
  refine .bind (.putInt (fun o => by simp [DirectedEnergyDamage.members, attrOf])) ?_
  refine .bind (.putInt (fun o => by simp [DirectedEnergyDamage.members, attrOf])) ?_
  refine .bind (.putInt (fun o => by simp [DirectedEnergyDamage.members, attrOf])) ?_
  refine .bind (.call EventIdentifier.shows (fun o => by simp [DirectedEnergyDamage.members, attrOf])) ?_
  exact .putInt (fun o => by simp [DirectedEnergyDamage.members, attrOf])

theorem DirectedEnergyAreaAimpoint.inits (ex : List (String × Tree)) : Inits (fun self => DirectedEnergyAreaAimpoint.initHeap self)
      (([("__class__", .sc (.cls "DirectedEnergyAreaAimpoint")), ("padding", .sc .absent), ("beamAntennaPatterns", .sc .absent), ("directedEnergyTargetEnergyDepositions", .sc .absent)] : List (String × Tree)) ++ ex)
      (DirectedEnergyAreaAimpoint.members {} ++ ex) := by
  unfold DirectedEnergyAreaAimpoint.initHeap
  refine .bind (.set' (by simp [attrOf_putAttr_isSome, attrOf, DirectedEnergyAreaAimpoint.members])) ?_
  refine .bind (.setOr' .empty (by simp [attrOf_putAttr_isSome, attrOf, DirectedEnergyAreaAimpoint.members])) ?_
  exact .cast (.setOr' .empty (by simp [attrOf_putAttr_isSome, attrOf, DirectedEnergyAreaAimpoint.members]))
    (by simp [putAttr, DirectedEnergyAreaAimpoint.members, Tree.ints, Tree.objs, Tree.optInt, Tree.optObj, Tree.intOr, Tree.optFloat])

theorem DirectedEnergyAreaAimpoint.makesNew : MakesNew DirectedEnergyAreaAimpoint.newHeap (.obj (DirectedEnergyAreaAimpoint.members DirectedEnergyAreaAimpoint.init)) :=
  .new (.cast (DirectedEnergyAreaAimpoint.inits []) (List.append_nil _))

theorem DirectedEnergyAreaAimpoint.refines (bytelength : Int) : Refines DirectedEnergyAreaAimpoint.members (DirectedEnergyAreaAimpoint.parseInto bytelength) (DirectedEnergyAreaAimpoint.parseHeap bytelength) := by
  unfold DirectedEnergyAreaAimpoint.parseInto DirectedEnergyAreaAimpoint.parseHeap
  refine .bind .read fun _ => ?_
  refine .bind .read fun _ => ?_
  refine .bind (.set' (fun o => by simp [DirectedEnergyAreaAimpoint.members, attrOf]) (fun o => by simp [DirectedEnergyAreaAimpoint.members, putAttr, Tree.optFloat])) fun _ => ?_
  refine .bind .read fun _ => ?_
  refine .bind .read fun _ => ?_
  refine .bind (.objs BeamAntennaPattern.makesNew (BeamAntennaPattern.refines (some 40)) (fun o => by simp [DirectedEnergyAreaAimpoint.members, attrOf]) (fun o v => by simp [DirectedEnergyAreaAimpoint.members, putAttr, Tree.optFloat])) fun _ => ?_
  refine .bind (.objs DirectedEnergyTargetEnergyDeposition.makesNew DirectedEnergyTargetEnergyDeposition.refines (fun o => by simp [DirectedEnergyAreaAimpoint.members, attrOf]) (fun o v => by simp [DirectedEnergyAreaAimpoint.members, putAttr, Tree.optFloat])) fun _ => ?_
  exact .pure

theorem DirectedEnergyAreaAimpoint.sizes : Sizes DirectedEnergyAreaAimpoint.members DirectedEnergyAreaAimpoint.marshalledSize DirectedEnergyAreaAimpoint.marshalledSizeHeap :=
  .twoLists (ts := BeamAntennaPattern.members) (ts' := DirectedEnergyTargetEnergyDeposition.members)
    BeamAntennaPattern.sizes DirectedEnergyTargetEnergyDeposition.sizes 8 (fun o => by simp [DirectedEnergyAreaAimpoint.members, attrOf]) (fun o => by simp [DirectedEnergyAreaAimpoint.members, attrOf])

theorem DirectedEnergyAreaAimpoint.shows : Shows DirectedEnergyAreaAimpoint.members DirectedEnergyAreaAimpoint.serialize DirectedEnergyAreaAimpoint.serializeHeap := by
  unfold DirectedEnergyAreaAimpoint.serialize DirectedEnergyAreaAimpoint.serializeHeap
  unfold StandardVariableRecord.serialize
  refine .bind (.bind (.write) (.size DirectedEnergyAreaAimpoint.sizes)) ?_
  refine .bind (.write) ?_
  refine .bind (.size DirectedEnergyAreaAimpoint.sizes) ?_
  refine .bind (.putInt (fun o => by simp [DirectedEnergyAreaAimpoint.members, attrOf])) ?_
  refine .bind (.lenObjs (ts := BeamAntennaPattern.members) (fun o => by simp [DirectedEnergyAreaAimpoint.members, attrOf])) ?_
  refine .bind (.lenObjs (ts := DirectedEnergyTargetEnergyDeposition.members) (fun o => by simp [DirectedEnergyAreaAimpoint.members, attrOf])) ?_
  refine .bind (.eachObj BeamAntennaPattern.shows (fun o => by simp [DirectedEnergyAreaAimpoint.members, attrOf])) ?_
  exact .eachObj DirectedEnergyTargetEnergyDeposition.shows (fun o => by simp [DirectedEnergyAreaAimpoint.members, attrOf])

theorem DirectedEnergyPrecisionAimpoint.inits (ex : List (String × Tree)) : Inits (fun self => DirectedEnergyPrecisionAimpoint.initHeap self)
      (([("__class__", .sc (.cls "DirectedEnergyPrecisionAimpoint")), ("padding", .sc .absent), ("targetSpotLocation", .sc .absent), ("targetSpotEntityLocation", .sc .absent), ("targetSpotVelocity", .sc .absent), ("targetSpotAcceleration", .sc .absent), ("targetEntityID", .sc .absent), ("targetComponentID", .sc .absent), ("beamSpotType", .sc .absent), ("beamSpotCrossSectionSemiMajorAxis", .sc .absent), ("beamSpotCrossSectionSemiMinorAxis", .sc .absent), ("beamSpotCrossSectionOrientationAngle", .sc .absent), ("peakIrradiance", .sc .absent), ("padding2", .sc .absent)] : List (String × Tree)) ++ ex)
      (DirectedEnergyPrecisionAimpoint.members {} ++ ex) := by
  unfold DirectedEnergyPrecisionAimpoint.initHeap
  refine .bind (.set' (by simp [attrOf_putAttr_isSome, attrOf, DirectedEnergyPrecisionAimpoint.members])) ?_
  refine .bind (.setOr' WorldCoordinates.makesNew (by simp [attrOf_putAttr_isSome, attrOf, DirectedEnergyPrecisionAimpoint.members])) ?_
  refine .bind (.setOr' Vector3Float.makesNew (by simp [attrOf_putAttr_isSome, attrOf, DirectedEnergyPrecisionAimpoint.members])) ?_
  refine .bind (.setOr' Vector3Float.makesNew (by simp [attrOf_putAttr_isSome, attrOf, DirectedEnergyPrecisionAimpoint.members])) ?_
  refine .bind (.setOr' Vector3Float.makesNew (by simp [attrOf_putAttr_isSome, attrOf, DirectedEnergyPrecisionAimpoint.members])) ?_
  refine .bind (.setOr' EntityIdentifier.makesNew (by simp [attrOf_putAttr_isSome, attrOf, DirectedEnergyPrecisionAimpoint.members])) ?_
  refine .bind (.set' (by simp [attrOf_putAttr_isSome, attrOf, DirectedEnergyPrecisionAimpoint.members])) ?_
  refine .bind (.set' (by simp [attrOf_putAttr_isSome, attrOf, DirectedEnergyPrecisionAimpoint.members])) ?_
  refine .bind (.set' (by simp [attrOf_putAttr_isSome, attrOf, DirectedEnergyPrecisionAimpoint.members])) ?_
  refine .bind (.set' (by simp [attrOf_putAttr_isSome, attrOf, DirectedEnergyPrecisionAimpoint.members])) ?_
  refine .bind (.set' (by simp [attrOf_putAttr_isSome, attrOf, DirectedEnergyPrecisionAimpoint.members])) ?_
  refine .bind (.set' (by simp [attrOf_putAttr_isSome, attrOf, DirectedEnergyPrecisionAimpoint.members])) ?_
  exact .cast (.set' (by simp [attrOf_putAttr_isSome, attrOf, DirectedEnergyPrecisionAimpoint.members]))
    (by simp [putAttr, DirectedEnergyPrecisionAimpoint.members, Tree.ints, Tree.objs, Tree.optInt, Tree.optObj, Tree.intOr, Tree.optFloat])

theorem DirectedEnergyPrecisionAimpoint.makesNew : MakesNew DirectedEnergyPrecisionAimpoint.newHeap (.obj (DirectedEnergyPrecisionAimpoint.members DirectedEnergyPrecisionAimpoint.init)) :=
  .new (.cast (DirectedEnergyPrecisionAimpoint.inits []) (List.append_nil _))

theorem DirectedEnergyPrecisionAimpoint.refines (bytelength : Int) : Refines DirectedEnergyPrecisionAimpoint.members (DirectedEnergyPrecisionAimpoint.parseInto bytelength) (DirectedEnergyPrecisionAimpoint.parseHeap bytelength) := by
  unfold DirectedEnergyPrecisionAimpoint.parseInto DirectedEnergyPrecisionAimpoint.parseHeap
  refine .bind .read fun _ => ?_
  refine .bind .read fun _ => ?_
  refine .bind (.set' (fun o => by simp [DirectedEnergyPrecisionAimpoint.members, attrOf]) (fun o => by simp [DirectedEnergyPrecisionAimpoint.members, putAttr, Tree.optFloat])) fun _ => ?_
  refine .bind (.call' WorldCoordinates.refines (fun o => by simp [DirectedEnergyPrecisionAimpoint.members, attrOf]) (fun o v => by simp [DirectedEnergyPrecisionAimpoint.members, putAttr, Tree.optFloat])) fun _ => ?_
  refine .bind (.call' Vector3Float.refines (fun o => by simp [DirectedEnergyPrecisionAimpoint.members, attrOf]) (fun o v => by simp [DirectedEnergyPrecisionAimpoint.members, putAttr, Tree.optFloat])) fun _ => ?_
  refine .bind (.call' Vector3Float.refines (fun o => by simp [DirectedEnergyPrecisionAimpoint.members, attrOf]) (fun o v => by simp [DirectedEnergyPrecisionAimpoint.members, putAttr, Tree.optFloat])) fun _ => ?_
  refine .bind (.call' Vector3Float.refines (fun o => by simp [DirectedEnergyPrecisionAimpoint.members, attrOf]) (fun o v => by simp [DirectedEnergyPrecisionAimpoint.members, putAttr, Tree.optFloat])) fun _ => ?_
  refine .bind (.call' EntityIdentifier.refines (fun o => by simp [DirectedEnergyPrecisionAimpoint.members, attrOf]) (fun o v => by simp [DirectedEnergyPrecisionAimpoint.members, putAttr, Tree.optFloat])) fun _ => ?_
  refine .bind .read fun _ => ?_
  refine .bind (.set' (fun o => by simp [DirectedEnergyPrecisionAimpoint.members, attrOf]) (fun o => by simp [DirectedEnergyPrecisionAimpoint.members, putAttr, Tree.optFloat])) fun _ => ?_
  refine .bind .read fun _ => ?_
  refine .bind (.set' (fun o => by simp [DirectedEnergyPrecisionAimpoint.members, attrOf]) (fun o => by simp [DirectedEnergyPrecisionAimpoint.members, putAttr, Tree.optFloat])) fun _ => ?_
  refine .bind .read fun _ => ?_
  refine .bind (.set' (fun o => by simp [DirectedEnergyPrecisionAimpoint.members, attrOf]) (fun o => by simp [DirectedEnergyPrecisionAimpoint.members, putAttr, Tree.optFloat])) fun _ => ?_
  refine .bind .read fun _ => ?_
  refine .bind (.set' (fun o => by simp [DirectedEnergyPrecisionAimpoint.members, attrOf]) (fun o => by simp [DirectedEnergyPrecisionAimpoint.members, putAttr, Tree.optFloat])) fun _ => ?_
  refine .bind .read fun _ => ?_
  refine .bind (.set' (fun o => by simp [DirectedEnergyPrecisionAimpoint.members, attrOf]) (fun o => by simp [DirectedEnergyPrecisionAimpoint.members, putAttr, Tree.optFloat])) fun _ => ?_
  refine .bind .read fun _ => ?_
  refine .bind (.set' (fun o => by simp [DirectedEnergyPrecisionAimpoint.members, attrOf]) (fun o => by simp [DirectedEnergyPrecisionAimpoint.members, putAttr, Tree.optFloat])) fun _ => ?_
  refine .bind .read fun _ => ?_
  refine .bind (.set' (fun o => by simp [DirectedEnergyPrecisionAimpoint.members, attrOf]) (fun o => by simp [DirectedEnergyPrecisionAimpoint.members, putAttr, Tree.optFloat])) fun _ => ?_
  exact .pure

theorem DirectedEnergyPrecisionAimpoint.shows : Shows DirectedEnergyPrecisionAimpoint.members DirectedEnergyPrecisionAimpoint.serialize DirectedEnergyPrecisionAimpoint.serializeHeap := by
  unfold DirectedEnergyPrecisionAimpoint.serialize DirectedEnergyPrecisionAimpoint.serializeHeap
  unfold StandardVariableRecord.serialize
  refine .bind (.bind (.write) (.write)) ?_
  refine .bind (.write) ?_
  refine .bind (.write) ?_
  refine .bind (.putInt (fun o => by simp [DirectedEnergyPrecisionAimpoint.members, attrOf])) ?_
  refine .bind (.call WorldCoordinates.shows (fun o => by simp [DirectedEnergyPrecisionAimpoint.members, attrOf])) ?_
  refine .bind (.call Vector3Float.shows (fun o => by simp [DirectedEnergyPrecisionAimpoint.members, attrOf])) ?_
  refine .bind (.call Vector3Float.shows (fun o => by simp [DirectedEnergyPrecisionAimpoint.members, attrOf])) ?_
  refine .bind (.call Vector3Float.shows (fun o => by simp [DirectedEnergyPrecisionAimpoint.members, attrOf])) ?_
  refine .bind (.call EntityIdentifier.shows (fun o => by simp [DirectedEnergyPrecisionAimpoint.members, attrOf])) ?_
  refine .bind (.putInt (fun o => by simp [DirectedEnergyPrecisionAimpoint.members, attrOf])) ?_
  refine .bind (.putInt (fun o => by simp [DirectedEnergyPrecisionAimpoint.members, attrOf])) ?_
  refine .bind (.putFloat (fun o => by simp [DirectedEnergyPrecisionAimpoint.members, attrOf])) ?_
  refine .bind (.putFloat (fun o => by simp [DirectedEnergyPrecisionAimpoint.members, attrOf])) ?_
  refine .bind (.putFloat (fun o => by simp [DirectedEnergyPrecisionAimpoint.members, attrOf])) ?_
  refine .bind (.putFloat (fun o => by simp [DirectedEnergyPrecisionAimpoint.members, attrOf])) ?_
  exact .putInt (fun o => by simp [DirectedEnergyPrecisionAimpoint.members, attrOf])

theorem UnknownStandardVariableRecord.inits (recordType : Int) (ex : List (String × Tree)) : Inits (fun self => UnknownStandardVariableRecord.initHeap self)
      (([("__class__", .sc (.cls "UnknownStandardVariableRecord")), ("recordType", .sc (.int recordType)), ("data", .sc .absent)] : List (String × Tree)) ++ ex)
      (UnknownStandardVariableRecord.members { recordType } ++ ex) := by
  unfold UnknownStandardVariableRecord.initHeap
  exact .cast (.set' (by simp [attrOf_putAttr_isSome, attrOf, UnknownStandardVariableRecord.members]))
    (by simp [putAttr, UnknownStandardVariableRecord.members, Tree.ints, Tree.objs, Tree.optInt, Tree.optObj, Tree.intOr, Tree.optFloat])

theorem UnknownStandardVariableRecord.makesNew (recordType : Int) : MakesNew (UnknownStandardVariableRecord.newHeap recordType) (.obj (UnknownStandardVariableRecord.members { recordType })) :=
  .new (.cast (UnknownStandardVariableRecord.inits recordType []) (List.append_nil _))

theorem UnknownStandardVariableRecord.refines (bytelength : Int) : Refines UnknownStandardVariableRecord.members (UnknownStandardVariableRecord.parseInto bytelength) (UnknownStandardVariableRecord.parseHeap bytelength) := by
  unfold UnknownStandardVariableRecord.parseInto UnknownStandardVariableRecord.parseHeap
  refine .bind .read fun _ => ?_
  refine .bind .read fun _ => ?_
  refine .bind (.set' (fun o => by simp [UnknownStandardVariableRecord.members, attrOf]) (fun o => by simp [UnknownStandardVariableRecord.members, putAttr, Tree.optFloat])) fun _ => ?_
  exact .pure

theorem UnknownStandardVariableRecord.sizes : Sizes UnknownStandardVariableRecord.members UnknownStandardVariableRecord.marshalledSize UnknownStandardVariableRecord.marshalledSizeHeap :=
  .bytes (fun o => by simp [UnknownStandardVariableRecord.members, attrOf]) 6

theorem UnknownStandardVariableRecord.shows : Shows UnknownStandardVariableRecord.members UnknownStandardVariableRecord.serialize UnknownStandardVariableRecord.serializeHeap := by
  unfold UnknownStandardVariableRecord.serialize UnknownStandardVariableRecord.serializeHeap
  unfold StandardVariableRecord.serialize
  refine .bind (.bind (.putInt (fun o => by simp [UnknownStandardVariableRecord.members, attrOf])) (.size UnknownStandardVariableRecord.sizes)) ?_
  refine .bind (.putInt (fun o => by simp [UnknownStandardVariableRecord.members, attrOf])) ?_
  refine .bind (.size UnknownStandardVariableRecord.sizes) ?_
  exact .putBytes (fun o => by simp [UnknownStandardVariableRecord.members, attrOf])

theorem SVClass.loads (c : SVClass) (n : Int) : Loads (SVClass.parseHeap c n) (SVClass.parse c n) SVRecord.members := by
  cases c with
  | highFidelityHAVEQUICKRadio => exact .load HighFidelityHAVEQUICKRadio.makesNew (HighFidelityHAVEQUICKRadio.refines n) (HighFidelityHAVEQUICKRadio.into n _) fun _ => rfl
  | directedEnergyPrecisionAimpoint => exact .load DirectedEnergyPrecisionAimpoint.makesNew (DirectedEnergyPrecisionAimpoint.refines n) (DirectedEnergyPrecisionAimpoint.into n _) fun _ => rfl
  | directedEnergyAreaAimpoint => exact .load DirectedEnergyAreaAimpoint.makesNew (DirectedEnergyAreaAimpoint.refines n) (DirectedEnergyAreaAimpoint.into n _) fun _ => rfl
  | directedEnergyDamage => exact .load DirectedEnergyDamage.makesNew (DirectedEnergyDamage.refines n) (DirectedEnergyDamage.into n _) fun _ => rfl
  | unknown t => exact .load (UnknownStandardVariableRecord.makesNew t) (UnknownStandardVariableRecord.refines n) (UnknownStandardVariableRecord.into n _) fun _ => rfl

theorem parseStandardVariableRecord_loads (b : SVBase) :
    Loads (parseStandardVariableRecordHeap b) (parseStandardVariableRecord b) SVRecord.members :=
  .read fun _ => .read fun _ => .read fun _ => SVClass.loads _ _

theorem SVRecord.shows : Shows SVRecord.members SVRecord.serialize SVRecord.serializeHeap := by
  intro ex self o h F A
  cases o with
  | highFidelityHAVEQUICKRadio r => exact Shows.dispatched (fs := HighFidelityHAVEQUICKRadio.members) (o := r) HighFidelityHAVEQUICKRadio.shows (c := "HighFidelityHAVEQUICKRadio") A (by simp [HighFidelityHAVEQUICKRadio.members, attrOf]) (by simp [attrOf])
  | directedEnergyPrecisionAimpoint r => exact Shows.dispatched (fs := DirectedEnergyPrecisionAimpoint.members) (o := r) DirectedEnergyPrecisionAimpoint.shows (c := "DirectedEnergyPrecisionAimpoint") A (by simp [DirectedEnergyPrecisionAimpoint.members, attrOf]) (by simp [attrOf])
  | directedEnergyAreaAimpoint r => exact Shows.dispatched (fs := DirectedEnergyAreaAimpoint.members) (o := r) DirectedEnergyAreaAimpoint.shows (c := "DirectedEnergyAreaAimpoint") A (by simp [DirectedEnergyAreaAimpoint.members, attrOf]) (by simp [attrOf])
  | directedEnergyDamage r => exact Shows.dispatched (fs := DirectedEnergyDamage.members) (o := r) DirectedEnergyDamage.shows (c := "DirectedEnergyDamage") A (by simp [DirectedEnergyDamage.members, attrOf]) (by simp [attrOf])
  | unknown r => exact Shows.dispatched (fs := UnknownStandardVariableRecord.members) (o := r) UnknownStandardVariableRecord.shows (c := "UnknownStandardVariableRecord") A (by simp [UnknownStandardVariableRecord.members, attrOf]) (by simp [attrOf])

theorem DirectedEnergyFirePdu.inits (p pf : Int) (ex : List (String × Tree)) : Inits (fun self => DirectedEnergyFirePdu.initHeap self)
      (([("protocolVersion", .sc .absent), ("exerciseID", .sc .absent), ("pduType", .sc (.int p)), ("protocolFamily", .sc (.int pf)), ("timestamp", .sc .absent), ("length", .sc .absent)] : List (String × Tree)) ++
      (([("pduStatus", .sc .absent), ("padding", .sc .absent)] : List (String × Tree)) ++
      (([("firingEntityID", .sc .absent), ("targetEntityID", .sc .absent)] : List (String × Tree)) ++
      (([("munitionType", .sc .absent), ("shotStartTime", .sc .absent), ("cumulativeShotTime", .sc .absent), ("commulativeShotTime", .sc .absent), ("apertureEmitterLocation", .sc .absent), ("apertureDiameter", .sc .absent), ("wavelength", .sc .absent), ("padding1", .sc .absent), ("pulseRepetitionFrequency", .sc .absent), ("pulseWidth", .sc .absent), ("flags", .sc .absent), ("pulseShape", .sc .absent), ("padding2", .sc .absent), ("padding3", .sc .absent), ("padding4", .sc .absent), ("dERecords", .sc .absent)] : List (String × Tree)) ++ ex))))
      (DirectedEnergyFirePdu.members { pduType := p, protocolFamily := pf } ++ ex) := by
  unfold DirectedEnergyFirePdu.initHeap
  refine .bind (WarfareFamilyPdu.inits p pf _) ?_
  refine .bind (.setOr' EntityType.makesNew (by simp [attrOf_putAttr_isSome, attrOf, DirectedEnergyFirePdu.members, WarfareFamilyPdu.members, Pdu.members, PduSuperclass.members])) ?_
  refine .bind (.setOr' ClockTime.makesNew (by simp [attrOf_putAttr_isSome, attrOf, DirectedEnergyFirePdu.members, WarfareFamilyPdu.members, Pdu.members, PduSuperclass.members])) ?_
  refine .bind (.set' (by simp [attrOf_putAttr_isSome, attrOf, DirectedEnergyFirePdu.members, WarfareFamilyPdu.members, Pdu.members, PduSuperclass.members])) ?_
  refine .bind (.setOr' Vector3Float.makesNew (by simp [attrOf_putAttr_isSome, attrOf, DirectedEnergyFirePdu.members, WarfareFamilyPdu.members, Pdu.members, PduSuperclass.members])) ?_
  refine .bind (.set' (by simp [attrOf_putAttr_isSome, attrOf, DirectedEnergyFirePdu.members, WarfareFamilyPdu.members, Pdu.members, PduSuperclass.members])) ?_
  refine .bind (.set' (by simp [attrOf_putAttr_isSome, attrOf, DirectedEnergyFirePdu.members, WarfareFamilyPdu.members, Pdu.members, PduSuperclass.members])) ?_
  refine .bind (.set' (by simp [attrOf_putAttr_isSome, attrOf, DirectedEnergyFirePdu.members, WarfareFamilyPdu.members, Pdu.members, PduSuperclass.members])) ?_
  refine .bind (.set' (by simp [attrOf_putAttr_isSome, attrOf, DirectedEnergyFirePdu.members, WarfareFamilyPdu.members, Pdu.members, PduSuperclass.members])) ?_
  refine .bind (.set' (by simp [attrOf_putAttr_isSome, attrOf, DirectedEnergyFirePdu.members, WarfareFamilyPdu.members, Pdu.members, PduSuperclass.members])) ?_
  refine .bind (.setOr' DEFireFlags.makesNew (by simp [attrOf_putAttr_isSome, attrOf, DirectedEnergyFirePdu.members, WarfareFamilyPdu.members, Pdu.members, PduSuperclass.members])) ?_
  refine .bind (.set' (by simp [attrOf_putAttr_isSome, attrOf, DirectedEnergyFirePdu.members, WarfareFamilyPdu.members, Pdu.members, PduSuperclass.members])) ?_
  refine .bind (.set' (by simp [attrOf_putAttr_isSome, attrOf, DirectedEnergyFirePdu.members, WarfareFamilyPdu.members, Pdu.members, PduSuperclass.members])) ?_
  refine .bind (.set' (by simp [attrOf_putAttr_isSome, attrOf, DirectedEnergyFirePdu.members, WarfareFamilyPdu.members, Pdu.members, PduSuperclass.members])) ?_
  refine .bind (.set' (by simp [attrOf_putAttr_isSome, attrOf, DirectedEnergyFirePdu.members, WarfareFamilyPdu.members, Pdu.members, PduSuperclass.members])) ?_
  exact .cast (.setOr' .empty (by simp [attrOf_putAttr_isSome, attrOf, DirectedEnergyFirePdu.members, WarfareFamilyPdu.members, Pdu.members, PduSuperclass.members]))
    (by simp [putAttr, DirectedEnergyFirePdu.members, WarfareFamilyPdu.members, Pdu.members, PduSuperclass.members, Tree.ints, Tree.objs, Tree.optInt, Tree.optObj, Tree.intOr, Tree.optFloat])

theorem DirectedEnergyFirePdu.makesNew : MakesNew DirectedEnergyFirePdu.newHeap (.obj (DirectedEnergyFirePdu.members DirectedEnergyFirePdu.init)) :=
  .new (.cast (DirectedEnergyFirePdu.inits 68 2 []) (List.append_nil _))

theorem DirectedEnergyFirePdu.refines : Refines DirectedEnergyFirePdu.members DirectedEnergyFirePdu.parseInto DirectedEnergyFirePdu.parseHeap := by
  unfold DirectedEnergyFirePdu.parseInto DirectedEnergyFirePdu.parseHeap
  refine .bind (.super WarfareFamilyPdu.refines (fun _ => rfl) (fun _ _ => rfl)) fun _ => ?_
  refine .bind (.call' EntityType.refines (fun o => by simp [DirectedEnergyFirePdu.members, WarfareFamilyPdu.members, Pdu.members, PduSuperclass.members, attrOf]) (fun o v => by simp [DirectedEnergyFirePdu.members, WarfareFamilyPdu.members, Pdu.members, PduSuperclass.members, putAttr, Tree.optFloat])) fun _ => ?_
  refine .bind (.call' ClockTime.refines (fun o => by simp [DirectedEnergyFirePdu.members, WarfareFamilyPdu.members, Pdu.members, PduSuperclass.members, attrOf]) (fun o v => by simp [DirectedEnergyFirePdu.members, WarfareFamilyPdu.members, Pdu.members, PduSuperclass.members, putAttr, Tree.optFloat])) fun _ => ?_
  refine .bind .read fun _ => ?_
  refine .bind (.set' (fun o => by simp [DirectedEnergyFirePdu.members, WarfareFamilyPdu.members, Pdu.members, PduSuperclass.members, attrOf]) (fun o => by simp [DirectedEnergyFirePdu.members, WarfareFamilyPdu.members, Pdu.members, PduSuperclass.members, putAttr, Tree.optFloat])) fun _ => ?_
  refine .bind (.call' Vector3Float.refines (fun o => by simp [DirectedEnergyFirePdu.members, WarfareFamilyPdu.members, Pdu.members, PduSuperclass.members, attrOf]) (fun o v => by simp [DirectedEnergyFirePdu.members, WarfareFamilyPdu.members, Pdu.members, PduSuperclass.members, putAttr, Tree.optFloat])) fun _ => ?_
  refine .bind .read fun _ => ?_
  refine .bind (.set' (fun o => by simp [DirectedEnergyFirePdu.members, WarfareFamilyPdu.members, Pdu.members, PduSuperclass.members, attrOf]) (fun o => by simp [DirectedEnergyFirePdu.members, WarfareFamilyPdu.members, Pdu.members, PduSuperclass.members, putAttr, Tree.optFloat])) fun _ => ?_
  refine .bind .read fun _ => ?_
  refine .bind (.set' (fun o => by simp [DirectedEnergyFirePdu.members, WarfareFamilyPdu.members, Pdu.members, PduSuperclass.members, attrOf]) (fun o => by simp [DirectedEnergyFirePdu.members, WarfareFamilyPdu.members, Pdu.members, PduSuperclass.members, putAttr, Tree.optFloat])) fun _ => ?_
  refine .bind .read fun _ => ?_
  refine .bind (.set' (fun o => by simp [DirectedEnergyFirePdu.members, WarfareFamilyPdu.members, Pdu.members, PduSuperclass.members, attrOf]) (fun o => by simp [DirectedEnergyFirePdu.members, WarfareFamilyPdu.members, Pdu.members, PduSuperclass.members, putAttr, Tree.optFloat])) fun _ => ?_
  refine .bind .read fun _ => ?_
  refine .bind (.set' (fun o => by simp [DirectedEnergyFirePdu.members, WarfareFamilyPdu.members, Pdu.members, PduSuperclass.members, attrOf]) (fun o => by simp [DirectedEnergyFirePdu.members, WarfareFamilyPdu.members, Pdu.members, PduSuperclass.members, putAttr, Tree.optFloat])) fun _ => ?_
  refine .bind .read fun _ => ?_
  refine .bind (.set' (fun o => by simp [DirectedEnergyFirePdu.members, WarfareFamilyPdu.members, Pdu.members, PduSuperclass.members, attrOf]) (fun o => by simp [DirectedEnergyFirePdu.members, WarfareFamilyPdu.members, Pdu.members, PduSuperclass.members, putAttr, Tree.optFloat])) fun _ => ?_
  refine .bind (.call' DEFireFlags.refines (fun o => by simp [DirectedEnergyFirePdu.members, WarfareFamilyPdu.members, Pdu.members, PduSuperclass.members, attrOf]) (fun o v => by simp [DirectedEnergyFirePdu.members, WarfareFamilyPdu.members, Pdu.members, PduSuperclass.members, putAttr, Tree.optFloat])) fun _ => ?_
  refine .bind .read fun _ => ?_
  refine .bind (.set' (fun o => by simp [DirectedEnergyFirePdu.members, WarfareFamilyPdu.members, Pdu.members, PduSuperclass.members, attrOf]) (fun o => by simp [DirectedEnergyFirePdu.members, WarfareFamilyPdu.members, Pdu.members, PduSuperclass.members, putAttr, Tree.optFloat])) fun _ => ?_
  refine .bind .read fun _ => ?_
  refine .bind (.set' (fun o => by simp [DirectedEnergyFirePdu.members, WarfareFamilyPdu.members, Pdu.members, PduSuperclass.members, attrOf]) (fun o => by simp [DirectedEnergyFirePdu.members, WarfareFamilyPdu.members, Pdu.members, PduSuperclass.members, putAttr, Tree.optFloat])) fun _ => ?_
  refine .bind .read fun _ => ?_
  refine .bind (.set' (fun o => by simp [DirectedEnergyFirePdu.members, WarfareFamilyPdu.members, Pdu.members, PduSuperclass.members, attrOf]) (fun o => by simp [DirectedEnergyFirePdu.members, WarfareFamilyPdu.members, Pdu.members, PduSuperclass.members, putAttr, Tree.optFloat])) fun _ => ?_
  refine .bind .read fun _ => ?_
  refine .bind (.set' (fun o => by simp [DirectedEnergyFirePdu.members, WarfareFamilyPdu.members, Pdu.members, PduSuperclass.members, attrOf]) (fun o => by simp [DirectedEnergyFirePdu.members, WarfareFamilyPdu.members, Pdu.members, PduSuperclass.members, putAttr, Tree.optFloat])) fun _ => ?_
  refine .bind .read fun _ => ?_
  refine .bind (.loads (parseStandardVariableRecord_loads _) (fun o => by simp [DirectedEnergyFirePdu.members, WarfareFamilyPdu.members, Pdu.members, PduSuperclass.members, attrOf]) (fun o v => by simp [DirectedEnergyFirePdu.members, WarfareFamilyPdu.members, Pdu.members, PduSuperclass.members, putAttr, Tree.optFloat])) fun _ => ?_
  exact .pure

theorem DirectedEnergyFirePdu.shows : Shows DirectedEnergyFirePdu.members DirectedEnergyFirePdu.serialize DirectedEnergyFirePdu.serializeHeap := by
  unfold DirectedEnergyFirePdu.serialize DirectedEnergyFirePdu.serializeHeap
  refine .bind (.super WarfareFamilyPdu.shows (fun _ => rfl)) ?_
  refine .bind (.call EntityType.shows (fun o => by simp [DirectedEnergyFirePdu.members, WarfareFamilyPdu.members, Pdu.members, PduSuperclass.members, attrOf])) ?_
  refine .bind (.call ClockTime.shows (fun o => by simp [DirectedEnergyFirePdu.members, WarfareFamilyPdu.members, Pdu.members, PduSuperclass.members, attrOf])) ?_
  refine .bind (.optFloat (fun o => by simp [DirectedEnergyFirePdu.members, WarfareFamilyPdu.members, Pdu.members, PduSuperclass.members, attrOf])) ?_
  refine .bind (.call Vector3Float.shows (fun o => by simp [DirectedEnergyFirePdu.members, WarfareFamilyPdu.members, Pdu.members, PduSuperclass.members, attrOf])) ?_
  refine .bind (.putFloat (fun o => by simp [DirectedEnergyFirePdu.members, WarfareFamilyPdu.members, Pdu.members, PduSuperclass.members, attrOf])) ?_
  refine .bind (.putFloat (fun o => by simp [DirectedEnergyFirePdu.members, WarfareFamilyPdu.members, Pdu.members, PduSuperclass.members, attrOf])) ?_
  refine .bind (.putInt (fun o => by simp [DirectedEnergyFirePdu.members, WarfareFamilyPdu.members, Pdu.members, PduSuperclass.members, attrOf])) ?_
  refine .bind (.putFloat (fun o => by simp [DirectedEnergyFirePdu.members, WarfareFamilyPdu.members, Pdu.members, PduSuperclass.members, attrOf])) ?_
  refine .bind (.putFloat (fun o => by simp [DirectedEnergyFirePdu.members, WarfareFamilyPdu.members, Pdu.members, PduSuperclass.members, attrOf])) ?_
  refine .bind (.call DEFireFlags.shows (fun o => by simp [DirectedEnergyFirePdu.members, WarfareFamilyPdu.members, Pdu.members, PduSuperclass.members, attrOf])) ?_
  refine .bind (.putInt (fun o => by simp [DirectedEnergyFirePdu.members, WarfareFamilyPdu.members, Pdu.members, PduSuperclass.members, attrOf])) ?_
  refine .bind (.putInt (fun o => by simp [DirectedEnergyFirePdu.members, WarfareFamilyPdu.members, Pdu.members, PduSuperclass.members, attrOf])) ?_
  refine .bind (.putInt (fun o => by simp [DirectedEnergyFirePdu.members, WarfareFamilyPdu.members, Pdu.members, PduSuperclass.members, attrOf])) ?_
  refine .bind (.putInt (fun o => by simp [DirectedEnergyFirePdu.members, WarfareFamilyPdu.members, Pdu.members, PduSuperclass.members, attrOf])) ?_
  refine .bind (.lenObjs (ts := SVRecord.members) (fun o => by simp [DirectedEnergyFirePdu.members, WarfareFamilyPdu.members, Pdu.members, PduSuperclass.members, attrOf])) ?_
  exact .eachObj SVRecord.shows (fun o => by simp [DirectedEnergyFirePdu.members, WarfareFamilyPdu.members, Pdu.members, PduSuperclass.members, attrOf])

theorem EntityDamageStatusPdu.inits (p pf : Int) (ex : List (String × Tree)) : Inits (fun self => EntityDamageStatusPdu.initHeap self)
      (([("protocolVersion", .sc .absent), ("exerciseID", .sc .absent), ("pduType", .sc (.int p)), ("protocolFamily", .sc (.int pf)), ("timestamp", .sc .absent), ("length", .sc .absent)] : List (String × Tree)) ++
      (([("pduStatus", .sc .absent), ("padding", .sc .absent)] : List (String × Tree)) ++
      (([("firingEntityID", .sc .absent), ("targetEntityID", .sc .absent)] : List (String × Tree)) ++
      (([("damagedEntityID", .sc .absent), ("padding1", .sc .absent), ("padding2", .sc .absent), ("damageDescriptions", .sc .absent)] : List (String × Tree)) ++ ex))))
      (EntityDamageStatusPdu.members { pduType := p, protocolFamily := pf } ++ ex) := by
  unfold EntityDamageStatusPdu.initHeap
  refine .bind (WarfareFamilyPdu.inits p pf _) ?_
  refine .bind (.setOr' EntityIdentifier.makesNew (by simp [attrOf_putAttr_isSome, attrOf, EntityDamageStatusPdu.members, WarfareFamilyPdu.members, Pdu.members, PduSuperclass.members])) ?_
  refine .bind (.set' (by simp [attrOf_putAttr_isSome, attrOf, EntityDamageStatusPdu.members, WarfareFamilyPdu.members, Pdu.members, PduSuperclass.members])) ?_
  refine .bind (.set' (by simp [attrOf_putAttr_isSome, attrOf, EntityDamageStatusPdu.members, WarfareFamilyPdu.members, Pdu.members, PduSuperclass.members])) ?_
  exact .cast (.setOr' .empty (by simp [attrOf_putAttr_isSome, attrOf, EntityDamageStatusPdu.members, WarfareFamilyPdu.members, Pdu.members, PduSuperclass.members]))
    (by simp [putAttr, EntityDamageStatusPdu.members, WarfareFamilyPdu.members, Pdu.members, PduSuperclass.members, Tree.ints, Tree.objs, Tree.optInt, Tree.optObj, Tree.intOr, Tree.optFloat])

theorem EntityDamageStatusPdu.makesNew : MakesNew EntityDamageStatusPdu.newHeap (.obj (EntityDamageStatusPdu.members EntityDamageStatusPdu.init)) :=
  .new (.cast (EntityDamageStatusPdu.inits 69 2 []) (List.append_nil _))

theorem EntityDamageStatusPdu.refines : Refines EntityDamageStatusPdu.members EntityDamageStatusPdu.parseInto EntityDamageStatusPdu.parseHeap := by
  unfold EntityDamageStatusPdu.parseInto EntityDamageStatusPdu.parseHeap
  refine .bind (.super WarfareFamilyPdu.refines (fun _ => rfl) (fun _ _ => rfl)) fun _ => ?_
  refine .bind (.call' EntityIdentifier.refines (fun o => by simp [EntityDamageStatusPdu.members, WarfareFamilyPdu.members, Pdu.members, PduSuperclass.members, attrOf]) (fun o v => by simp [EntityDamageStatusPdu.members, WarfareFamilyPdu.members, Pdu.members, PduSuperclass.members, putAttr, Tree.optFloat])) fun _ => ?_
  refine .bind .read fun _ => ?_
  refine .bind (.set' (fun o => by simp [EntityDamageStatusPdu.members, WarfareFamilyPdu.members, Pdu.members, PduSuperclass.members, attrOf]) (fun o => by simp [EntityDamageStatusPdu.members, WarfareFamilyPdu.members, Pdu.members, PduSuperclass.members, putAttr, Tree.optFloat])) fun _ => ?_
  refine .bind .read fun _ => ?_
  refine .bind (.set' (fun o => by simp [EntityDamageStatusPdu.members, WarfareFamilyPdu.members, Pdu.members, PduSuperclass.members, attrOf]) (fun o => by simp [EntityDamageStatusPdu.members, WarfareFamilyPdu.members, Pdu.members, PduSuperclass.members, putAttr, Tree.optFloat])) fun _ => ?_
  refine .bind .read fun _ => ?_
  refine .bind (.loads (parseStandardVariableRecord_loads _) (fun o => by simp [EntityDamageStatusPdu.members, WarfareFamilyPdu.members, Pdu.members, PduSuperclass.members, attrOf]) (fun o v => by simp [EntityDamageStatusPdu.members, WarfareFamilyPdu.members, Pdu.members, PduSuperclass.members, putAttr, Tree.optFloat])) fun _ => ?_
  exact .pure

theorem EntityDamageStatusPdu.shows : Shows EntityDamageStatusPdu.members EntityDamageStatusPdu.serialize EntityDamageStatusPdu.serializeHeap := by
  unfold EntityDamageStatusPdu.serialize EntityDamageStatusPdu.serializeHeap
  refine .bind (.super WarfareFamilyPdu.shows (fun _ => rfl)) ?_
  refine .bind (.call EntityIdentifier.shows (fun o => by simp [EntityDamageStatusPdu.members, WarfareFamilyPdu.members, Pdu.members, PduSuperclass.members, attrOf])) ?_
  refine .bind (.putInt (fun o => by simp [EntityDamageStatusPdu.members, WarfareFamilyPdu.members, Pdu.members, PduSuperclass.members, attrOf])) ?_
  refine .bind (.putInt (fun o => by simp [EntityDamageStatusPdu.members, WarfareFamilyPdu.members, Pdu.members, PduSuperclass.members, attrOf])) ?_
  refine .bind (.lenObjs (ts := SVRecord.members) (fun o => by simp [EntityDamageStatusPdu.members, WarfareFamilyPdu.members, Pdu.members, PduSuperclass.members, attrOf])) ?_
  exact .eachObj SVRecord.shows (fun o => by simp [EntityDamageStatusPdu.members, WarfareFamilyPdu.members, Pdu.members, PduSuperclass.members, attrOf])

theorem UnknownRadio.inits (ex : List (String × Tree)) : Inits (fun self => UnknownRadio.initHeap self)
      (([("__class__", .sc (.cls "UnknownRadio")), ("data", .sc .absent)] : List (String × Tree)) ++ ex)
      (UnknownRadio.members {} ++ ex) := by
  unfold UnknownRadio.initHeap
  exact .cast (.set' (by simp [attrOf_putAttr_isSome, attrOf, UnknownRadio.members]))
    (by simp [putAttr, UnknownRadio.members, Tree.ints, Tree.objs, Tree.optInt, Tree.optObj, Tree.intOr, Tree.optFloat])

theorem UnknownRadio.makesNew : MakesNew UnknownRadio.newHeap (.obj (UnknownRadio.members {})) :=
  .new (.cast (UnknownRadio.inits []) (List.append_nil _))

theorem UnknownRadio.refines (bytelength : Option Int) : Refines UnknownRadio.members (UnknownRadio.parseInto bytelength) (UnknownRadio.parseHeap bytelength) := by
  unfold UnknownRadio.parseInto UnknownRadio.parseHeap
  refine .bind .read fun _ => ?_
  refine .bind .read fun _ => ?_
  refine .bind .read fun _ => ?_
  refine .bind (.set' (fun o => by simp [UnknownRadio.members, attrOf]) (fun o => by simp [UnknownRadio.members, putAttr, Tree.optFloat])) fun _ => ?_
  exact .pure

theorem UnknownRadio.sizes : Sizes UnknownRadio.members UnknownRadio.marshalledSize UnknownRadio.marshalledSizeHeap :=
  .bytes0 (fun o => by simp [UnknownRadio.members, attrOf])

theorem UnknownRadio.shows : Shows UnknownRadio.members UnknownRadio.serialize UnknownRadio.serializeHeap := by
  unfold UnknownRadio.serialize UnknownRadio.serializeHeap
  exact .putBytes (fun o => by simp [UnknownRadio.members, attrOf])

theorem UnknownAntennaPattern.inits (ex : List (String × Tree)) : Inits (fun self => UnknownAntennaPattern.initHeap self)
      (([("__class__", .sc (.cls "UnknownAntennaPattern")), ("data", .sc .absent)] : List (String × Tree)) ++ ex)
      (UnknownAntennaPattern.members {} ++ ex) := by
  unfold UnknownAntennaPattern.initHeap
  exact .cast (.set' (by simp [attrOf_putAttr_isSome, attrOf, UnknownAntennaPattern.members]))
    (by simp [putAttr, UnknownAntennaPattern.members, Tree.ints, Tree.objs, Tree.optInt, Tree.optObj, Tree.intOr, Tree.optFloat])

theorem UnknownAntennaPattern.makesNew : MakesNew UnknownAntennaPattern.newHeap (.obj (UnknownAntennaPattern.members {})) :=
  .new (.cast (UnknownAntennaPattern.inits []) (List.append_nil _))

theorem UnknownAntennaPattern.refines (bytelength : Int) : Refines UnknownAntennaPattern.members (UnknownAntennaPattern.parseInto bytelength) (UnknownAntennaPattern.parseHeap bytelength) := by
  unfold UnknownAntennaPattern.parseInto UnknownAntennaPattern.parseHeap
  refine .bind .read fun _ => ?_
  refine .bind .read fun _ => ?_
  refine .bind (.set' (fun o => by simp [UnknownAntennaPattern.members, attrOf]) (fun o => by simp [UnknownAntennaPattern.members, putAttr, Tree.optFloat])) fun _ => ?_
  exact .pure

theorem UnknownAntennaPattern.sizes : Sizes UnknownAntennaPattern.members UnknownAntennaPattern.marshalledSize UnknownAntennaPattern.marshalledSizeHeap :=
  .bytes0 (fun o => by simp [UnknownAntennaPattern.members, attrOf])

theorem UnknownAntennaPattern.shows : Shows UnknownAntennaPattern.members UnknownAntennaPattern.serialize UnknownAntennaPattern.serializeHeap := by
  unfold UnknownAntennaPattern.serialize UnknownAntennaPattern.serializeHeap
  exact .putBytes (fun o => by simp [UnknownAntennaPattern.members, attrOf])

theorem BasicHaveQuickMP.sizes : Sizes BasicHaveQuickMP.members BasicHaveQuickMP.marshalledSize BasicHaveQuickMP.marshalledSizeHeap :=
  fun _ _ _ _ _ _ => rfl

theorem CCTTSincgarsMP.sizes : Sizes CCTTSincgarsMP.members CCTTSincgarsMP.marshalledSize CCTTSincgarsMP.marshalledSizeHeap :=
  fun _ _ _ _ _ _ => rfl

theorem ModulationParametersRecord.shows : Shows ModulationParametersRecord.members ModulationParametersRecord.serialize
    ModulationParametersRecord.serializeHeap := by
  intro ex self o h F A
  cases o with
  | unknown r => exact Shows.dispatched (fs := UnknownRadio.members) (o := r) UnknownRadio.shows (c := "UnknownRadio") A (by simp [UnknownRadio.members, attrOf]) (by simp [attrOf])
  | generic => exact Shows.dispatched (fs := fun _ : Unit => [("__class__", .sc (.cls "GenericRadio"))]) (o := ()) (m := fun _ => pure ()) .pure (c := "GenericRadio") A rfl (by simp [attrOf])
  | simpleIntercom => exact Shows.dispatched (fs := fun _ : Unit => [("__class__", .sc (.cls "SimpleIntercomRadio"))]) (o := ()) (m := fun _ => pure ()) .pure (c := "SimpleIntercomRadio") A rfl (by simp [attrOf])
  | haveQuick r => exact Shows.dispatched (fs := BasicHaveQuickMP.members) (o := r) BasicHaveQuickMP.shows (c := "BasicHaveQuickMP") A (by simp [BasicHaveQuickMP.members, attrOf]) (by simp [attrOf])
  | sincgars r => exact Shows.dispatched (fs := CCTTSincgarsMP.members) (o := r) CCTTSincgarsMP.shows (c := "CCTTSincgarsMP") A (by simp [CCTTSincgarsMP.members, attrOf]) (by simp [attrOf])

theorem ModulationParametersRecord.sizes : Sizes ModulationParametersRecord.members
    ModulationParametersRecord.marshalledSize ModulationParametersRecord.marshalledSizeHeap := by
  intro ex self o h F A
  cases o with
  | unknown r => exact Sizes.dispatched (fs := UnknownRadio.members) (o := r) UnknownRadio.sizes (c := "UnknownRadio") A (by simp [UnknownRadio.members, attrOf]) (by simp [attrOf])
  | generic => exact Sizes.dispatched (fs := fun _ : Unit => [("__class__", .sc (.cls "GenericRadio"))]) (o := ()) (k := fun _ => 0) (m := fun _ => pure 0) (fun _ _ _ _ _ _ => rfl) (c := "GenericRadio") A rfl (by simp [attrOf])
  | simpleIntercom => exact Sizes.dispatched (fs := fun _ : Unit => [("__class__", .sc (.cls "SimpleIntercomRadio"))]) (o := ()) (k := fun _ => 0) (m := fun _ => pure 0) (fun _ _ _ _ _ _ => rfl) (c := "SimpleIntercomRadio") A rfl (by simp [attrOf])
  | haveQuick r => exact Sizes.dispatched (fs := BasicHaveQuickMP.members) (o := r) BasicHaveQuickMP.sizes (c := "BasicHaveQuickMP") A (by simp [BasicHaveQuickMP.members, attrOf]) (by simp [attrOf])
  | sincgars r => exact Sizes.dispatched (fs := CCTTSincgarsMP.members) (o := r) CCTTSincgarsMP.sizes (c := "CCTTSincgarsMP") A (by simp [CCTTSincgarsMP.members, attrOf]) (by simp [attrOf])

theorem AntennaPatternRecord.shows : Shows AntennaPatternRecord.members AntennaPatternRecord.serialize
    AntennaPatternRecord.serializeHeap := by
  intro ex self o h F A
  cases o with
  | unknown r => exact Shows.dispatched (fs := UnknownAntennaPattern.members) (o := r) UnknownAntennaPattern.shows (c := "UnknownAntennaPattern") A (by simp [UnknownAntennaPattern.members, attrOf]) (by simp [attrOf])
  | beam r => exact Shows.dispatched (fs := BeamAntennaPattern.members) (o := r) BeamAntennaPattern.shows (c := "BeamAntennaPattern") A (by simp [BeamAntennaPattern.members, attrOf]) (by simp [attrOf])

theorem AntennaPatternRecord.sizes : Sizes AntennaPatternRecord.members AntennaPatternRecord.marshalledSize
    AntennaPatternRecord.marshalledSizeHeap := by
  intro ex self o h F A
  cases o with
  | unknown r => exact Sizes.dispatched (fs := UnknownAntennaPattern.members) (o := r) UnknownAntennaPattern.sizes (c := "UnknownAntennaPattern") A (by simp [UnknownAntennaPattern.members, attrOf]) (by simp [attrOf])
  | beam r => exact Sizes.dispatched (fs := BeamAntennaPattern.members) (o := r) BeamAntennaPattern.sizes (c := "BeamAntennaPattern") A (by simp [BeamAntennaPattern.members, attrOf]) (by simp [attrOf])

theorem GenericRadio.loads : Loads (H.load GenericRadio.newHeap GenericRadio.parseHeap) (pure () : R Unit)
    (fun _ => [("__class__", .sc (.cls "GenericRadio"))]) :=
  .load (us := fun _ : Unit => [("__class__", .sc (.cls "GenericRadio"))]) (fresh := ()) (p := pure ()) (g := id)
    (.new .done) .pure rfl fun _ => rfl

theorem SimpleIntercomRadio.loads : Loads (H.load SimpleIntercomRadio.newHeap SimpleIntercomRadio.parseHeap)
    (pure () : R Unit) (fun _ => [("__class__", .sc (.cls "SimpleIntercomRadio"))]) :=
  .load (us := fun _ : Unit => [("__class__", .sc (.cls "SimpleIntercomRadio"))]) (fresh := ()) (p := pure ()) (g := id)
    (.new .done) .pure rfl fun _ => rfl

theorem TransmitterPdu.setRadio {τ : Type} {r : R τ} {g : τ → ModulationParametersRecord} {m : H Ref}
    {ts : τ → List (String × Tree)} (hm : Loads m r ts) (hg : ∀ v, (g v).members = ts v) :
    Refines TransmitterPdu.members (P.read (r >>= fun v => Pure.pure (some (g v))) >>= fun v =>
        P.set fun o : TransmitterPdu => { o with modulationParameters := v })
      (fun self => m >>= fun x => H.setAttr self "modulationParameters" (.ref x)) :=
  Refines.setLoad (σ := TransmitterPdu) (g := fun v => some (g v))
    (f := fun v o => { o with modulationParameters := v }) hm
    (fun o => by
      simp [TransmitterPdu.members, RadioCommunicationsFamilyPdu.members, Pdu.members, PduSuperclass.members, attrOf])
    (fun o v => by
      rw [← hg]
      simp [TransmitterPdu.members, RadioCommunicationsFamilyPdu.members, Pdu.members, PduSuperclass.members, putAttr,
        Tree.noneOr])

theorem TransmitterPdu.refinesModulationParameters (n : Int) : Refines TransmitterPdu.members
    (P.get (·.modulationType) >>= fun modulationType =>
      P.read (TransmitterPdu.parseModulationParameters modulationType n) >>= fun modulationParameters =>
      P.set fun o : TransmitterPdu => { o with modulationParameters := modulationParameters })
    (TransmitterPdu.parseModulationParametersHeap n) := by
  intro ex self o h F s A
  have h1 : ∀ o, (attrOf "modulationParameters" (TransmitterPdu.members o)).isSome := fun o => by
    simp [TransmitterPdu.members, RadioCommunicationsFamilyPdu.members, Pdu.members, PduSuperclass.members, attrOf]
  have h2 : ∀ (o : TransmitterPdu) (v : Option ModulationParametersRecord),
      TransmitterPdu.members { o with modulationParameters := v } =
        putAttr "modulationParameters" (.noneOr ModulationParametersRecord.members v) (TransmitterPdu.members o) := fun o v => by
    simp [TransmitterPdu.members, RadioCommunicationsFamilyPdu.members, Pdu.members, PduSuperclass.members, putAttr]
  obtain ⟨r, G, e, B⟩ := A.objAttr s (n := "modulationType") (attrOf_append (t := Tree.obj (ModulationType.members o.modulationType)) (by
    simp [TransmitterPdu.members, RadioCommunicationsFamilyPdu.members, Pdu.members, PduSuperclass.members, attrOf]))
  have e1 := B.intAttr s (n := "radioSystem") (v := o.modulationType.radioSystem) (by simp [ModulationType.members, attrOf])
  have e2 := B.intAttr s (n := "majorModulation") (v := o.modulationType.majorModulation) (by simp [ModulationType.members, attrOf])
  show (_ = ((P.read (TransmitterPdu.parseModulationParameters o.modulationType n) >>= fun v =>
    P.set fun o : TransmitterPdu => { o with modulationParameters := v }) o s).1) ∧ (_ = ((P.read (TransmitterPdu.parseModulationParameters o.modulationType n) >>= fun v =>
    P.set fun o : TransmitterPdu => { o with modulationParameters := v }) o s).2.2) ∧ ∃ F', Holds _ _ (.obj (TransmitterPdu.members ((P.read (TransmitterPdu.parseModulationParameters o.modulationType n) >>= fun v =>
    P.set fun o : TransmitterPdu => { o with modulationParameters := v }) o s).2.1 ++ _)) F' ∧ _
  unfold TransmitterPdu.parseModulationParametersHeap TransmitterPdu.parseModulationParameters
  by_cases hn : n > 0
  · rw [if_pos hn, if_pos hn]
    by_cases c1 : o.modulationType.radioSystem = 1
    · rw [if_pos c1]
      by_cases c2 : o.modulationType.majorModulation = 0
      · rw [if_pos c2]
        have E : (TransmitterPdu.radioHeap n self >>= fun x => H.setAttr self "modulationParameters" (.ref x)) h s =
            (H.load SimpleIntercomRadio.newHeap SimpleIntercomRadio.parseHeap >>= fun x => H.setAttr self "modulationParameters" (.ref x)) h s := by
          simp only [TransmitterPdu.radioHeap, H.bind_def, H.bind, e, e1, e2, c1, c2, if_true]
        rw [E]
        exact (TransmitterPdu.setRadio (g := fun _ => .simpleIntercom) SimpleIntercomRadio.loads fun _ => rfl) ex self o h F s A
      · rw [if_neg c2]
        have E : (TransmitterPdu.radioHeap n self >>= fun x => H.setAttr self "modulationParameters" (.ref x)) h s =
            (H.load GenericRadio.newHeap GenericRadio.parseHeap >>= fun x => H.setAttr self "modulationParameters" (.ref x)) h s := by
          simp only [TransmitterPdu.radioHeap, H.bind_def, H.bind, e, e1, e2, c1, c2, if_true, if_false]
        rw [E]
        exact (TransmitterPdu.setRadio (g := fun _ => .generic) GenericRadio.loads fun _ => rfl) ex self o h F s A
    · rw [if_neg c1]
      by_cases c2 : o.modulationType.radioSystem = 2 ∨ o.modulationType.radioSystem = 3 ∨ o.modulationType.radioSystem = 4
      · rw [if_pos c2]
        have E : (TransmitterPdu.radioHeap n self >>= fun x => H.setAttr self "modulationParameters" (.ref x)) h s =
            (H.load BasicHaveQuickMP.newHeap (BasicHaveQuickMP.parseHeap none) >>= fun x => H.setAttr self "modulationParameters" (.ref x)) h s := by
          simp only [TransmitterPdu.radioHeap, H.bind_def, H.bind, e, e1, e2, c1, if_pos c2, if_false]
        rw [E]
        exact (TransmitterPdu.setRadio (g := fun r => (.haveQuick r))
          (Loads.plain BasicHaveQuickMP.makesNew (BasicHaveQuickMP.refines none) (BasicHaveQuickMP.into none _)) fun _ => rfl) ex self o h F s A
      · rw [if_neg c2]
        by_cases c3 : o.modulationType.radioSystem = 6
        · rw [if_pos c3]
          have E : (TransmitterPdu.radioHeap n self >>= fun x => H.setAttr self "modulationParameters" (.ref x)) h s =
              (H.load CCTTSincgarsMP.newHeap (CCTTSincgarsMP.parseHeap none) >>= fun x => H.setAttr self "modulationParameters" (.ref x)) h s := by
            simp only [TransmitterPdu.radioHeap, H.bind_def, H.bind, e, e1, e2, if_neg c1, if_neg c2, if_pos c3]
          rw [E]
          exact (TransmitterPdu.setRadio (g := fun r => (.sincgars r))
            (Loads.plain CCTTSincgarsMP.makesNew (CCTTSincgarsMP.refines none) (CCTTSincgarsMP.into none _)) fun _ => rfl) ex self o h F s A
        · rw [if_neg c3]
          have E : (TransmitterPdu.radioHeap n self >>= fun x => H.setAttr self "modulationParameters" (.ref x)) h s =
              (H.load UnknownRadio.newHeap (UnknownRadio.parseHeap (some n)) >>= fun x => H.setAttr self "modulationParameters" (.ref x)) h s := by
            simp only [TransmitterPdu.radioHeap, H.bind_def, H.bind, e, e1, e2, if_neg c1, if_neg c2, if_neg c3]
          rw [E]
          exact (TransmitterPdu.setRadio (g := fun r => (.unknown r))
            (Loads.plain UnknownRadio.makesNew (UnknownRadio.refines (some n)) (UnknownRadio.into (some n) _)) fun _ => rfl) ex self o h F s A
  · rw [if_neg hn, if_neg hn]
    exact Refines.set' h1 (fun o => h2 o none) ex self o h F s A

theorem TransmitterPdu.refinesAntennaPattern (n : Int) : Refines TransmitterPdu.members
    (P.get (·.antennaPatternType) >>= fun antennaPatternType =>
      TransmitterPdu.parseAntennaPatternInto antennaPatternType n)
    (TransmitterPdu.parseAntennaPatternHeap n) := by
  have h1 : ∀ o, (attrOf "antennaPattern" (TransmitterPdu.members o)).isSome := fun o => by
    simp [TransmitterPdu.members, RadioCommunicationsFamilyPdu.members, Pdu.members, PduSuperclass.members, attrOf]
  have h2 : ∀ (o : TransmitterPdu) (v : Option AntennaPatternRecord),
      TransmitterPdu.members { o with antennaPattern := v } =
        putAttr "antennaPattern" (.noneOr AntennaPatternRecord.members v) (TransmitterPdu.members o) := fun o v => by
    simp [TransmitterPdu.members, RadioCommunicationsFamilyPdu.members, Pdu.members, PduSuperclass.members, putAttr]
  unfold TransmitterPdu.parseAntennaPatternHeap TransmitterPdu.parseAntennaPatternInto
  by_cases hn : n > 0
  · simp only [if_pos hn]
    refine .bind (.intGet fun o => by
      simp [TransmitterPdu.members, RadioCommunicationsFamilyPdu.members, Pdu.members, PduSuperclass.members, attrOf]) fun t => ?_
    by_cases ht : t = 1
    · simp only [if_pos ht]
      exact Refines.setCall (σ := TransmitterPdu) (ts := BeamAntennaPattern.members) (fresh := BeamAntennaPattern.init) (f := fun o v => { o with antennaPattern := some (.beam v) }) BeamAntennaPattern.makesNew
        (BeamAntennaPattern.refines (some 40)) h1 (fun o v => h2 o (some (.beam v))) fun _ _ _ => rfl
    · simp only [if_neg ht]
      have e : (P.set (fun o : TransmitterPdu => { o with antennaPattern := some (.unknown {}) }) >>= fun _ =>
            P.read (UnknownAntennaPattern.parse {} n) >>= fun p =>
            P.set fun o : TransmitterPdu => { o with antennaPattern := some (.unknown p) }) =
          (P.set (fun o : TransmitterPdu => { o with antennaPattern := some (.unknown {}) }) >>= fun _ =>
            P.call ⟨fun _ => {}, fun o v => { o with antennaPattern := some (.unknown v) }⟩ (UnknownAntennaPattern.parseInto n)) := by
        funext o s
        simp only [UnknownAntennaPattern.parse, UnknownAntennaPattern.parseInto, P.bind_def, P.bind, P.set, P.read, P.call,
          R.bind_def, R.bind]
        rcases VariableRecord.parse (some n) s with ⟨_ | _, s'⟩
        · rfl
        · dsimp only
          rcases read_bytes (n - 6) s' with ⟨_ | _, s''⟩ <;> rfl
      rw [e]
      exact Refines.setCall (σ := TransmitterPdu) (ts := UnknownAntennaPattern.members) (fresh := {}) (f := fun o v => { o with antennaPattern := some (.unknown v) }) UnknownAntennaPattern.makesNew
        (UnknownAntennaPattern.refines n) h1 (fun o v => h2 o (some (.unknown v))) fun _ _ _ => rfl
  · simp only [if_neg hn]
    exact .set' h1 (fun o => h2 o none)

theorem TransmitterPdu.modulationThen {n : Int} {k : P TransmitterPdu Unit} {l : Ref → H Unit}
    (hk : Refines TransmitterPdu.members k l) : Refines TransmitterPdu.members
      (P.get (·.modulationType) >>= fun modulationType =>
        P.read (TransmitterPdu.parseModulationParameters modulationType n) >>= fun modulationParameters =>
        (P.set fun o : TransmitterPdu => { o with modulationParameters := modulationParameters }) >>= fun _ => k)
      (fun self => TransmitterPdu.parseModulationParametersHeap n self >>= fun _ => l self) := by
  have := Refines.bind (l := fun self _ => l self) (TransmitterPdu.refinesModulationParameters n) fun _ : Unit => hk
  rw [P.bind_assoc] at this
  simp only [P.bind_assoc] at this
  exact this

theorem TransmitterPdu.antennaThen {n : Int} {k : P TransmitterPdu Unit} {l : Ref → H Unit}
    (hk : Refines TransmitterPdu.members k l) : Refines TransmitterPdu.members
      (P.get (·.antennaPatternType) >>= fun antennaPatternType =>
        TransmitterPdu.parseAntennaPatternInto antennaPatternType n >>= fun _ => k)
      (fun self => TransmitterPdu.parseAntennaPatternHeap n self >>= fun _ => l self) := by
  have := Refines.bind (l := fun self _ => l self) (TransmitterPdu.refinesAntennaPattern n) fun _ : Unit => hk
  rw [P.bind_assoc] at this
  exact this

namespace Shows

variable {σ : Type} {fs : σ → List (String × Tree)}

theorem intercomList {n : String} {g : σ → IntercomParametersValue}
    (h1 : ∀ o, attrOf n (fs o) = some (g o).tree) {ex : List (String × Tree)} {self : Ref} {o : σ}
    {h : Heap} {F : List Ref} (A : Amounts h (.ref self) (.obj (fs o ++ ex)) F) :
    match g o with
    | .records l => ∃ us G, S.list self n h = Pure.pure us ∧
        AmountsAll h us (l.map fun v => .obj (IntercomCommunicationsParameters.members v)) G
    | _ => S.list self n h = W.throw .typeError := by
  have h2 := attrOf_append (ex := ex) (h1 o)
  obtain ⟨v, G, e, B⟩ := S.attr_eq A h2 (by cases g o <;> nofun)
  cases hg : g o with
  | none =>
    rw [hg] at B
    obtain rfl := B.none
    simp only [S.bind_def, S.bind, S.list, e, W.pure_bind', S.items]
    rfl
  | record r =>
    rw [hg] at B
    cases v with
    | sc x => exact B.not_sc.elim
    | ref r =>
      obtain ⟨d, hr⟩ := B.isObj
      simp only [S.bind_def, S.bind, S.list, e, W.pure_bind', S.items, hr]
  | records l =>
    rw [hg] at B
    cases v with
    | sc x => exact B.not_sc'.elim
    | ref r =>
      obtain ⟨us, G, hr, C⟩ := B.list
      refine ⟨us, G, ?_, C⟩
      simp only [S.bind_def, S.bind, S.list, e, W.pure_bind', S.items, hr]

theorem intercomLen {n : String} {k : Int → W Unit} {g : σ → IntercomParametersValue}
    (h1 : ∀ o, attrOf n (fs o) = some (g o).tree) :
    Shows fs (fun o => W.using (g o).len k) (fun self => S.putLen self n k) := by
  intro ex self o h F A
  have e := intercomList h1 A
  simp only [S.putLen, S.bind_def, S.bind]
  cases hg : g o with
  | none => rw [hg] at e; rw [e]; rfl
  | record r => rw [hg] at e; rw [e]; rfl
  | records l =>
    rw [hg] at e
    obtain ⟨us, G, e, C⟩ := e
    rw [e, W.pure_bind', C.length, List.length_map]
    rfl

theorem intercomEach {n : String} {c : Ref → S Unit} {g : σ → IntercomParametersValue}
    (hw : Shows IntercomCommunicationsParameters.members IntercomCommunicationsParameters.serialize c)
    (h1 : ∀ o, attrOf n (fs o) = some (g o).tree) :
    Shows fs (fun o => (g o).serializeAll) (fun self => S.each self n c) := by
  intro ex self o h F A
  have e := intercomList h1 A
  simp only [S.each, S.bind_def, S.bind]
  cases hg : g o with
  | none => rw [hg] at e; rw [e]; rfl
  | record r => rw [hg] at e; rw [e]; rfl
  | records l =>
    rw [hg] at e
    obtain ⟨us, G, e, C⟩ := e
    rw [e, W.pure_bind']
    refine forEach_eq (fun v x G A => ?_) C
    cases v with
    | sc x => exact A.not_sc.elim
    | ref r =>
      have := hw [] r x h G (by rwa [List.append_nil])
      simp only [S.asObj]
      exact (W.pure_bind' _ _).trans this

end Shows

theorem TransmitterPdu.inits (p pf : Int) (ex : List (String × Tree)) : Inits (fun self => TransmitterPdu.initHeap self)
      (([("protocolVersion", .sc .absent), ("exerciseID", .sc .absent), ("pduType", .sc (.int p)), ("protocolFamily", .sc (.int pf)), ("timestamp", .sc .absent), ("length", .sc .absent)] : List (String × Tree)) ++
      (([("pduStatus", .sc .absent), ("padding", .sc .absent)] : List (String × Tree)) ++
      ([] ++
      (([("radioReferenceID", .sc .absent), ("radioNumber", .sc .absent), ("radioEntityType", .sc .absent), ("transmitState", .sc .absent), ("inputSource", .sc .absent), ("antennaLocation", .sc .absent), ("relativeAntennaLocation", .sc .absent), ("antennaPatternType", .sc .absent), ("frequency", .sc .absent), ("transmitFrequencyBandwidth", .sc .absent), ("power", .sc .absent), ("modulationType", .sc .absent), ("cryptoSystem", .sc .absent), ("cryptoKeyId", .sc .absent), ("padding2", .sc .absent), ("padding3", .sc .absent), ("modulationParameters", .sc .absent), ("antennaPattern", .sc .absent), ("variableTransmitterParameters", .sc .absent)] : List (String × Tree)) ++ ex))))
      (TransmitterPdu.members { pduType := p, protocolFamily := pf } ++ ex) := by
  unfold TransmitterPdu.initHeap
  refine .bind (RadioCommunicationsFamilyPdu.inits p pf _) ?_
  refine .bind (.setOr' EntityIdentifier.makesNew (by simp [attrOf_putAttr_isSome, attrOf, TransmitterPdu.members, RadioCommunicationsFamilyPdu.members, Pdu.members, PduSuperclass.members])) ?_
  refine .bind (.set' (by simp [attrOf_putAttr_isSome, attrOf, TransmitterPdu.members, RadioCommunicationsFamilyPdu.members, Pdu.members, PduSuperclass.members])) ?_
  refine .bind (.setOr' EntityType.makesNew (by simp [attrOf_putAttr_isSome, attrOf, TransmitterPdu.members, RadioCommunicationsFamilyPdu.members, Pdu.members, PduSuperclass.members])) ?_
  refine .bind (.set' (by simp [attrOf_putAttr_isSome, attrOf, TransmitterPdu.members, RadioCommunicationsFamilyPdu.members, Pdu.members, PduSuperclass.members])) ?_
  refine .bind (.set' (by simp [attrOf_putAttr_isSome, attrOf, TransmitterPdu.members, RadioCommunicationsFamilyPdu.members, Pdu.members, PduSuperclass.members])) ?_
  refine .bind (.setOr' WorldCoordinates.makesNew (by simp [attrOf_putAttr_isSome, attrOf, TransmitterPdu.members, RadioCommunicationsFamilyPdu.members, Pdu.members, PduSuperclass.members])) ?_
  refine .bind (.setOr' Vector3Float.makesNew (by simp [attrOf_putAttr_isSome, attrOf, TransmitterPdu.members, RadioCommunicationsFamilyPdu.members, Pdu.members, PduSuperclass.members])) ?_
  refine .bind (.set' (by simp [attrOf_putAttr_isSome, attrOf, TransmitterPdu.members, RadioCommunicationsFamilyPdu.members, Pdu.members, PduSuperclass.members])) ?_
  refine .bind (.set' (by simp [attrOf_putAttr_isSome, attrOf, TransmitterPdu.members, RadioCommunicationsFamilyPdu.members, Pdu.members, PduSuperclass.members])) ?_
  refine .bind (.set' (by simp [attrOf_putAttr_isSome, attrOf, TransmitterPdu.members, RadioCommunicationsFamilyPdu.members, Pdu.members, PduSuperclass.members])) ?_
  refine .bind (.set' (by simp [attrOf_putAttr_isSome, attrOf, TransmitterPdu.members, RadioCommunicationsFamilyPdu.members, Pdu.members, PduSuperclass.members])) ?_
  refine .bind (.setOr' ModulationType.makesNew (by simp [attrOf_putAttr_isSome, attrOf, TransmitterPdu.members, RadioCommunicationsFamilyPdu.members, Pdu.members, PduSuperclass.members])) ?_
  refine .bind (.set' (by simp [attrOf_putAttr_isSome, attrOf, TransmitterPdu.members, RadioCommunicationsFamilyPdu.members, Pdu.members, PduSuperclass.members])) ?_
  refine .bind (.set' (by simp [attrOf_putAttr_isSome, attrOf, TransmitterPdu.members, RadioCommunicationsFamilyPdu.members, Pdu.members, PduSuperclass.members])) ?_
  refine .bind (.set' (by simp [attrOf_putAttr_isSome, attrOf, TransmitterPdu.members, RadioCommunicationsFamilyPdu.members, Pdu.members, PduSuperclass.members])) ?_
  refine .bind (.set' (by simp [attrOf_putAttr_isSome, attrOf, TransmitterPdu.members, RadioCommunicationsFamilyPdu.members, Pdu.members, PduSuperclass.members])) ?_
  refine .bind (.set' (by simp [attrOf_putAttr_isSome, attrOf, TransmitterPdu.members, RadioCommunicationsFamilyPdu.members, Pdu.members, PduSuperclass.members])) ?_
  refine .bind (.set' (by simp [attrOf_putAttr_isSome, attrOf, TransmitterPdu.members, RadioCommunicationsFamilyPdu.members, Pdu.members, PduSuperclass.members])) ?_
  exact .cast (.setNew' .listOrNew (by simp [attrOf_putAttr_isSome, attrOf, TransmitterPdu.members, RadioCommunicationsFamilyPdu.members, Pdu.members, PduSuperclass.members]))
    (by simp [putAttr, TransmitterPdu.members, RadioCommunicationsFamilyPdu.members, Pdu.members, PduSuperclass.members, Tree.ints, Tree.objs, Tree.optInt, Tree.optObj, Tree.intOr, Tree.optFloat, Tree.noneOr, IntercomParametersValue.tree])

theorem TransmitterPdu.makesNew : MakesNew TransmitterPdu.newHeap (.obj (TransmitterPdu.members TransmitterPdu.init)) :=
  .new (.cast (TransmitterPdu.inits 25 4 []) (List.append_nil _))

theorem TransmitterPdu.refines : Refines TransmitterPdu.members TransmitterPdu.parseInto TransmitterPdu.parseHeap := by
  unfold TransmitterPdu.parseInto TransmitterPdu.parseHeap
  refine .bind (.super RadioCommunicationsFamilyPdu.refines (fun _ => rfl) (fun _ _ => rfl)) fun _ => ?_
  refine .bind (.call' EntityIdentifier.refines (fun o => by simp [TransmitterPdu.members, RadioCommunicationsFamilyPdu.members, Pdu.members, PduSuperclass.members, attrOf]) (fun o v => by simp [TransmitterPdu.members, RadioCommunicationsFamilyPdu.members, Pdu.members, PduSuperclass.members, putAttr, Tree.optFloat])) fun _ => ?_
  refine .bind .read fun _ => ?_
  refine .bind (.set' (fun o => by simp [TransmitterPdu.members, RadioCommunicationsFamilyPdu.members, Pdu.members, PduSuperclass.members, attrOf]) (fun o => by simp [TransmitterPdu.members, RadioCommunicationsFamilyPdu.members, Pdu.members, PduSuperclass.members, putAttr, Tree.optFloat])) fun _ => ?_
  refine .bind (.call' EntityType.refines (fun o => by simp [TransmitterPdu.members, RadioCommunicationsFamilyPdu.members, Pdu.members, PduSuperclass.members, attrOf]) (fun o v => by simp [TransmitterPdu.members, RadioCommunicationsFamilyPdu.members, Pdu.members, PduSuperclass.members, putAttr, Tree.optFloat])) fun _ => ?_
  refine .bind .read fun _ => ?_
  refine .bind (.set' (fun o => by simp [TransmitterPdu.members, RadioCommunicationsFamilyPdu.members, Pdu.members, PduSuperclass.members, attrOf]) (fun o => by simp [TransmitterPdu.members, RadioCommunicationsFamilyPdu.members, Pdu.members, PduSuperclass.members, putAttr, Tree.optFloat])) fun _ => ?_
  refine .bind .read fun _ => ?_
  refine .bind (.set' (fun o => by simp [TransmitterPdu.members, RadioCommunicationsFamilyPdu.members, Pdu.members, PduSuperclass.members, attrOf]) (fun o => by simp [TransmitterPdu.members, RadioCommunicationsFamilyPdu.members, Pdu.members, PduSuperclass.members, putAttr, Tree.optFloat])) fun _ => ?_
  refine .bind .read fun _ => ?_
  refine .bind (.call' WorldCoordinates.refines (fun o => by simp [TransmitterPdu.members, RadioCommunicationsFamilyPdu.members, Pdu.members, PduSuperclass.members, attrOf]) (fun o v => by simp [TransmitterPdu.members, RadioCommunicationsFamilyPdu.members, Pdu.members, PduSuperclass.members, putAttr, Tree.optFloat])) fun _ => ?_
  refine .bind (.call' Vector3Float.refines (fun o => by simp [TransmitterPdu.members, RadioCommunicationsFamilyPdu.members, Pdu.members, PduSuperclass.members, attrOf]) (fun o v => by simp [TransmitterPdu.members, RadioCommunicationsFamilyPdu.members, Pdu.members, PduSuperclass.members, putAttr, Tree.optFloat])) fun _ => ?_
  refine .bind .read fun _ => ?_
  refine .bind (.set' (fun o => by simp [TransmitterPdu.members, RadioCommunicationsFamilyPdu.members, Pdu.members, PduSuperclass.members, attrOf]) (fun o => by simp [TransmitterPdu.members, RadioCommunicationsFamilyPdu.members, Pdu.members, PduSuperclass.members, putAttr, Tree.optFloat])) fun _ => ?_
  refine .bind .read fun _ => ?_
  refine .bind .read fun _ => ?_
  refine .bind (.set' (fun o => by simp [TransmitterPdu.members, RadioCommunicationsFamilyPdu.members, Pdu.members, PduSuperclass.members, attrOf]) (fun o => by simp [TransmitterPdu.members, RadioCommunicationsFamilyPdu.members, Pdu.members, PduSuperclass.members, putAttr, Tree.optFloat])) fun _ => ?_
  refine .bind .read fun _ => ?_
  refine .bind (.set' (fun o => by simp [TransmitterPdu.members, RadioCommunicationsFamilyPdu.members, Pdu.members, PduSuperclass.members, attrOf]) (fun o => by simp [TransmitterPdu.members, RadioCommunicationsFamilyPdu.members, Pdu.members, PduSuperclass.members, putAttr, Tree.optFloat])) fun _ => ?_
  refine .bind .read fun _ => ?_
  refine .bind (.set' (fun o => by simp [TransmitterPdu.members, RadioCommunicationsFamilyPdu.members, Pdu.members, PduSuperclass.members, attrOf]) (fun o => by simp [TransmitterPdu.members, RadioCommunicationsFamilyPdu.members, Pdu.members, PduSuperclass.members, putAttr, Tree.optFloat])) fun _ => ?_
  refine .bind (.call' ModulationType.refines (fun o => by simp [TransmitterPdu.members, RadioCommunicationsFamilyPdu.members, Pdu.members, PduSuperclass.members, attrOf]) (fun o v => by simp [TransmitterPdu.members, RadioCommunicationsFamilyPdu.members, Pdu.members, PduSuperclass.members, putAttr, Tree.optFloat])) fun _ => ?_
  refine .bind .read fun _ => ?_
  refine .bind (.set' (fun o => by simp [TransmitterPdu.members, RadioCommunicationsFamilyPdu.members, Pdu.members, PduSuperclass.members, attrOf]) (fun o => by simp [TransmitterPdu.members, RadioCommunicationsFamilyPdu.members, Pdu.members, PduSuperclass.members, putAttr, Tree.optFloat])) fun _ => ?_
  refine .bind .read fun _ => ?_
  refine .bind (.set' (fun o => by simp [TransmitterPdu.members, RadioCommunicationsFamilyPdu.members, Pdu.members, PduSuperclass.members, attrOf]) (fun o => by simp [TransmitterPdu.members, RadioCommunicationsFamilyPdu.members, Pdu.members, PduSuperclass.members, putAttr, Tree.optFloat])) fun _ => ?_
  refine .bind .read fun _ => ?_
  refine .bind .read fun _ => ?_
  refine .bind (.set' (fun o => by simp [TransmitterPdu.members, RadioCommunicationsFamilyPdu.members, Pdu.members, PduSuperclass.members, attrOf]) (fun o => by simp [TransmitterPdu.members, RadioCommunicationsFamilyPdu.members, Pdu.members, PduSuperclass.members, putAttr, Tree.optFloat])) fun _ => ?_
  refine .bind .read fun _ => ?_
  refine .bind (.set' (fun o => by simp [TransmitterPdu.members, RadioCommunicationsFamilyPdu.members, Pdu.members, PduSuperclass.members, attrOf]) (fun o => by simp [TransmitterPdu.members, RadioCommunicationsFamilyPdu.members, Pdu.members, PduSuperclass.members, putAttr, Tree.optFloat])) fun _ => ?_
  refine TransmitterPdu.modulationThen ?_
  refine TransmitterPdu.antennaThen ?_
  refine .bind (.loads (parseStandardVariableRecord_loads _) (fun o => by simp [TransmitterPdu.members, RadioCommunicationsFamilyPdu.members, Pdu.members, PduSuperclass.members, attrOf]) (fun o v => by simp [TransmitterPdu.members, RadioCommunicationsFamilyPdu.members, Pdu.members, PduSuperclass.members, putAttr, Tree.optFloat])) fun _ => ?_
  exact .pure

theorem TransmitterPdu.antennaPatternLength_sizes : Sizes TransmitterPdu.members TransmitterPdu.antennaPatternLength TransmitterPdu.antennaPatternLengthHeap :=
  Sizes.noneOr (fs := TransmitterPdu.members) (n := "antennaPattern") (g := (·.antennaPattern)) AntennaPatternRecord.sizes (fun o => by simp [TransmitterPdu.members, RadioCommunicationsFamilyPdu.members, Pdu.members, PduSuperclass.members, attrOf])
    fun o => by unfold TransmitterPdu.antennaPatternLength; cases o.antennaPattern <;> rfl

theorem TransmitterPdu.modulationParametersLength_sizes : Sizes TransmitterPdu.members TransmitterPdu.modulationParametersLength TransmitterPdu.modulationParametersLengthHeap :=
  Sizes.noneOr (fs := TransmitterPdu.members) (n := "modulationParameters") (g := (·.modulationParameters)) ModulationParametersRecord.sizes (fun o => by simp [TransmitterPdu.members, RadioCommunicationsFamilyPdu.members, Pdu.members, PduSuperclass.members, attrOf])
    fun o => by unfold TransmitterPdu.modulationParametersLength; cases o.modulationParameters <;> rfl

theorem TransmitterPdu.shows : Shows TransmitterPdu.members TransmitterPdu.serialize TransmitterPdu.serializeHeap := by
  unfold TransmitterPdu.serialize TransmitterPdu.serializeHeap
  refine .bind (.super RadioCommunicationsFamilyPdu.shows (fun _ => rfl)) ?_
  refine .bind (.call EntityIdentifier.shows (fun o => by simp [TransmitterPdu.members, RadioCommunicationsFamilyPdu.members, Pdu.members, PduSuperclass.members, attrOf])) ?_
  refine .bind (.putInt (fun o => by simp [TransmitterPdu.members, RadioCommunicationsFamilyPdu.members, Pdu.members, PduSuperclass.members, attrOf])) ?_
  refine .bind (.call EntityType.shows (fun o => by simp [TransmitterPdu.members, RadioCommunicationsFamilyPdu.members, Pdu.members, PduSuperclass.members, attrOf])) ?_
  refine .bind (.putInt (fun o => by simp [TransmitterPdu.members, RadioCommunicationsFamilyPdu.members, Pdu.members, PduSuperclass.members, attrOf])) ?_
  refine .bind (.putInt (fun o => by simp [TransmitterPdu.members, RadioCommunicationsFamilyPdu.members, Pdu.members, PduSuperclass.members, attrOf])) ?_
  refine .bind (.lenObjs (ts := SVRecord.members) (fun o => by simp [TransmitterPdu.members, RadioCommunicationsFamilyPdu.members, Pdu.members, PduSuperclass.members, attrOf])) ?_
  refine .bind (.call WorldCoordinates.shows (fun o => by simp [TransmitterPdu.members, RadioCommunicationsFamilyPdu.members, Pdu.members, PduSuperclass.members, attrOf])) ?_
  refine .bind (.call Vector3Float.shows (fun o => by simp [TransmitterPdu.members, RadioCommunicationsFamilyPdu.members, Pdu.members, PduSuperclass.members, attrOf])) ?_
  refine .bind (.putInt (fun o => by simp [TransmitterPdu.members, RadioCommunicationsFamilyPdu.members, Pdu.members, PduSuperclass.members, attrOf])) ?_
  refine .bind (.size TransmitterPdu.antennaPatternLength_sizes) ?_
  refine .bind (.putInt (fun o => by simp [TransmitterPdu.members, RadioCommunicationsFamilyPdu.members, Pdu.members, PduSuperclass.members, attrOf])) ?_
  refine .bind (.putFloat (fun o => by simp [TransmitterPdu.members, RadioCommunicationsFamilyPdu.members, Pdu.members, PduSuperclass.members, attrOf])) ?_
  refine .bind (.putFloat (fun o => by simp [TransmitterPdu.members, RadioCommunicationsFamilyPdu.members, Pdu.members, PduSuperclass.members, attrOf])) ?_
  refine .bind (.call ModulationType.shows (fun o => by simp [TransmitterPdu.members, RadioCommunicationsFamilyPdu.members, Pdu.members, PduSuperclass.members, attrOf])) ?_
  refine .bind (.putInt (fun o => by simp [TransmitterPdu.members, RadioCommunicationsFamilyPdu.members, Pdu.members, PduSuperclass.members, attrOf])) ?_
  refine .bind (.putInt (fun o => by simp [TransmitterPdu.members, RadioCommunicationsFamilyPdu.members, Pdu.members, PduSuperclass.members, attrOf])) ?_
  refine .bind (.size TransmitterPdu.modulationParametersLength_sizes) ?_
  refine .bind (.putInt (fun o => by simp [TransmitterPdu.members, RadioCommunicationsFamilyPdu.members, Pdu.members, PduSuperclass.members, attrOf])) ?_
  refine .bind (.putInt (fun o => by simp [TransmitterPdu.members, RadioCommunicationsFamilyPdu.members, Pdu.members, PduSuperclass.members, attrOf])) ?_
  refine .bind (.noneOr ModulationParametersRecord.shows (fun o => by simp [TransmitterPdu.members, RadioCommunicationsFamilyPdu.members, Pdu.members, PduSuperclass.members, attrOf])) ?_
  refine .bind (.noneOr AntennaPatternRecord.shows (fun o => by simp [TransmitterPdu.members, RadioCommunicationsFamilyPdu.members, Pdu.members, PduSuperclass.members, attrOf])) ?_
  exact .eachObj SVRecord.shows (fun o => by simp [TransmitterPdu.members, RadioCommunicationsFamilyPdu.members, Pdu.members, PduSuperclass.members, attrOf])

theorem IntercomControlPdu.inits (p pf : Int) (ex : List (String × Tree)) : Inits (fun self => IntercomControlPdu.initHeap self)
      (([("protocolVersion", .sc .absent), ("exerciseID", .sc .absent), ("pduType", .sc (.int p)), ("protocolFamily", .sc (.int pf)), ("timestamp", .sc .absent), ("length", .sc .absent)] : List (String × Tree)) ++
      (([("pduStatus", .sc .absent), ("padding", .sc .absent)] : List (String × Tree)) ++
      ([] ++
      (([("controlType", .sc .absent), ("communicationsChannelType", .sc .absent), ("sourceEntityID", .sc .absent), ("sourceCommunicationsDeviceID", .sc .absent), ("sourceLineID", .sc .absent), ("transmitPriority", .sc .absent), ("transmitLineState", .sc .absent), ("command", .sc .absent), ("masterEntityID", .sc .absent), ("masterCommunicationsDeviceID", .sc .absent), ("intercomParameters", .sc .absent)] : List (String × Tree)) ++ ex))))
      (IntercomControlPdu.members { pduType := p, protocolFamily := pf } ++ ex) := by
  unfold IntercomControlPdu.initHeap
  refine .bind (RadioCommunicationsFamilyPdu.inits p pf _) ?_
  refine .bind (.set' (by simp [attrOf_putAttr_isSome, attrOf, IntercomControlPdu.members, RadioCommunicationsFamilyPdu.members, Pdu.members, PduSuperclass.members])) ?_
  refine .bind (.set' (by simp [attrOf_putAttr_isSome, attrOf, IntercomControlPdu.members, RadioCommunicationsFamilyPdu.members, Pdu.members, PduSuperclass.members])) ?_
  refine .bind (.setOr' EntityIdentifier.makesNew (by simp [attrOf_putAttr_isSome, attrOf, IntercomControlPdu.members, RadioCommunicationsFamilyPdu.members, Pdu.members, PduSuperclass.members])) ?_
  refine .bind (.set' (by simp [attrOf_putAttr_isSome, attrOf, IntercomControlPdu.members, RadioCommunicationsFamilyPdu.members, Pdu.members, PduSuperclass.members])) ?_
  refine .bind (.set' (by simp [attrOf_putAttr_isSome, attrOf, IntercomControlPdu.members, RadioCommunicationsFamilyPdu.members, Pdu.members, PduSuperclass.members])) ?_
  refine .bind (.set' (by simp [attrOf_putAttr_isSome, attrOf, IntercomControlPdu.members, RadioCommunicationsFamilyPdu.members, Pdu.members, PduSuperclass.members])) ?_
  refine .bind (.set' (by simp [attrOf_putAttr_isSome, attrOf, IntercomControlPdu.members, RadioCommunicationsFamilyPdu.members, Pdu.members, PduSuperclass.members])) ?_
  refine .bind (.set' (by simp [attrOf_putAttr_isSome, attrOf, IntercomControlPdu.members, RadioCommunicationsFamilyPdu.members, Pdu.members, PduSuperclass.members])) ?_
  refine .bind (.setOr' EntityIdentifier.makesNew (by simp [attrOf_putAttr_isSome, attrOf, IntercomControlPdu.members, RadioCommunicationsFamilyPdu.members, Pdu.members, PduSuperclass.members])) ?_
  refine .bind (.set' (by simp [attrOf_putAttr_isSome, attrOf, IntercomControlPdu.members, RadioCommunicationsFamilyPdu.members, Pdu.members, PduSuperclass.members])) ?_
  exact .cast (.set' (by simp [attrOf_putAttr_isSome, attrOf, IntercomControlPdu.members, RadioCommunicationsFamilyPdu.members, Pdu.members, PduSuperclass.members]))
    (by simp [putAttr, IntercomControlPdu.members, RadioCommunicationsFamilyPdu.members, Pdu.members, PduSuperclass.members, Tree.ints, Tree.objs, Tree.optInt, Tree.optObj, Tree.intOr, Tree.optFloat, Tree.noneOr, IntercomParametersValue.tree])

theorem IntercomControlPdu.makesNew : MakesNew IntercomControlPdu.newHeap (.obj (IntercomControlPdu.members IntercomControlPdu.init)) :=
  .new (.cast (IntercomControlPdu.inits 32 4 []) (List.append_nil _))

theorem IntercomControlPdu.refines : Refines IntercomControlPdu.members IntercomControlPdu.parseInto IntercomControlPdu.parseHeap := by
  unfold IntercomControlPdu.parseInto IntercomControlPdu.parseHeap
  refine .bind (.super RadioCommunicationsFamilyPdu.refines (fun _ => rfl) (fun _ _ => rfl)) fun _ => ?_
  refine .bind .read fun _ => ?_
  refine .bind (.set' (fun o => by simp [IntercomControlPdu.members, RadioCommunicationsFamilyPdu.members, Pdu.members, PduSuperclass.members, attrOf]) (fun o => by simp [IntercomControlPdu.members, RadioCommunicationsFamilyPdu.members, Pdu.members, PduSuperclass.members, putAttr, Tree.optFloat])) fun _ => ?_
  refine .bind .read fun _ => ?_
  refine .bind (.set' (fun o => by simp [IntercomControlPdu.members, RadioCommunicationsFamilyPdu.members, Pdu.members, PduSuperclass.members, attrOf]) (fun o => by simp [IntercomControlPdu.members, RadioCommunicationsFamilyPdu.members, Pdu.members, PduSuperclass.members, putAttr, Tree.optFloat])) fun _ => ?_
  refine .bind (.call' EntityIdentifier.refines (fun o => by simp [IntercomControlPdu.members, RadioCommunicationsFamilyPdu.members, Pdu.members, PduSuperclass.members, attrOf]) (fun o v => by simp [IntercomControlPdu.members, RadioCommunicationsFamilyPdu.members, Pdu.members, PduSuperclass.members, putAttr, Tree.optFloat])) fun _ => ?_
  refine .bind .read fun _ => ?_
  refine .bind (.set' (fun o => by simp [IntercomControlPdu.members, RadioCommunicationsFamilyPdu.members, Pdu.members, PduSuperclass.members, attrOf]) (fun o => by simp [IntercomControlPdu.members, RadioCommunicationsFamilyPdu.members, Pdu.members, PduSuperclass.members, putAttr, Tree.optFloat])) fun _ => ?_
  refine .bind .read fun _ => ?_
  refine .bind (.set' (fun o => by simp [IntercomControlPdu.members, RadioCommunicationsFamilyPdu.members, Pdu.members, PduSuperclass.members, attrOf]) (fun o => by simp [IntercomControlPdu.members, RadioCommunicationsFamilyPdu.members, Pdu.members, PduSuperclass.members, putAttr, Tree.optFloat])) fun _ => ?_
  refine .bind .read fun _ => ?_
  refine .bind (.set' (fun o => by simp [IntercomControlPdu.members, RadioCommunicationsFamilyPdu.members, Pdu.members, PduSuperclass.members, attrOf]) (fun o => by simp [IntercomControlPdu.members, RadioCommunicationsFamilyPdu.members, Pdu.members, PduSuperclass.members, putAttr, Tree.optFloat])) fun _ => ?_
  refine .bind .read fun _ => ?_
  refine .bind (.set' (fun o => by simp [IntercomControlPdu.members, RadioCommunicationsFamilyPdu.members, Pdu.members, PduSuperclass.members, attrOf]) (fun o => by simp [IntercomControlPdu.members, RadioCommunicationsFamilyPdu.members, Pdu.members, PduSuperclass.members, putAttr, Tree.optFloat])) fun _ => ?_
  refine .bind .read fun _ => ?_
  refine .bind (.set' (fun o => by simp [IntercomControlPdu.members, RadioCommunicationsFamilyPdu.members, Pdu.members, PduSuperclass.members, attrOf]) (fun o => by simp [IntercomControlPdu.members, RadioCommunicationsFamilyPdu.members, Pdu.members, PduSuperclass.members, putAttr, Tree.optFloat])) fun _ => ?_
  refine .bind (.call' EntityIdentifier.refines (fun o => by simp [IntercomControlPdu.members, RadioCommunicationsFamilyPdu.members, Pdu.members, PduSuperclass.members, attrOf]) (fun o v => by simp [IntercomControlPdu.members, RadioCommunicationsFamilyPdu.members, Pdu.members, PduSuperclass.members, putAttr, Tree.optFloat])) fun _ => ?_
  refine .bind .read fun _ => ?_
  refine .bind (.set' (fun o => by simp [IntercomControlPdu.members, RadioCommunicationsFamilyPdu.members, Pdu.members, PduSuperclass.members, attrOf]) (fun o => by simp [IntercomControlPdu.members, RadioCommunicationsFamilyPdu.members, Pdu.members, PduSuperclass.members, putAttr, Tree.optFloat])) fun _ => ?_
  refine .bind .read fun _ => ?_
  exact .raise

theorem IntercomControlPdu.shows : Shows IntercomControlPdu.members IntercomControlPdu.serialize IntercomControlPdu.serializeHeap := by
  unfold IntercomControlPdu.serialize IntercomControlPdu.serializeHeap
  refine .bind (.super RadioCommunicationsFamilyPdu.shows (fun _ => rfl)) ?_
  refine .bind (.putInt (fun o => by simp [IntercomControlPdu.members, RadioCommunicationsFamilyPdu.members, Pdu.members, PduSuperclass.members, attrOf])) ?_
  refine .bind (.putInt (fun o => by simp [IntercomControlPdu.members, RadioCommunicationsFamilyPdu.members, Pdu.members, PduSuperclass.members, attrOf])) ?_
  refine .bind (.call EntityIdentifier.shows (fun o => by simp [IntercomControlPdu.members, RadioCommunicationsFamilyPdu.members, Pdu.members, PduSuperclass.members, attrOf])) ?_
  refine .bind (.putInt (fun o => by simp [IntercomControlPdu.members, RadioCommunicationsFamilyPdu.members, Pdu.members, PduSuperclass.members, attrOf])) ?_
  refine .bind (.putInt (fun o => by simp [IntercomControlPdu.members, RadioCommunicationsFamilyPdu.members, Pdu.members, PduSuperclass.members, attrOf])) ?_
  refine .bind (.putInt (fun o => by simp [IntercomControlPdu.members, RadioCommunicationsFamilyPdu.members, Pdu.members, PduSuperclass.members, attrOf])) ?_
  refine .bind (.putInt (fun o => by simp [IntercomControlPdu.members, RadioCommunicationsFamilyPdu.members, Pdu.members, PduSuperclass.members, attrOf])) ?_
  refine .bind (.putInt (fun o => by simp [IntercomControlPdu.members, RadioCommunicationsFamilyPdu.members, Pdu.members, PduSuperclass.members, attrOf])) ?_
  refine .bind (.call EntityIdentifier.shows (fun o => by simp [IntercomControlPdu.members, RadioCommunicationsFamilyPdu.members, Pdu.members, PduSuperclass.members, attrOf])) ?_
  refine .bind (.putInt (fun o => by simp [IntercomControlPdu.members, RadioCommunicationsFamilyPdu.members, Pdu.members, PduSuperclass.members, attrOf])) ?_
  refine .bind (.intercomLen (fun o => by simp [IntercomControlPdu.members, RadioCommunicationsFamilyPdu.members, Pdu.members, PduSuperclass.members, attrOf])) ?_
  exact .intercomEach IntercomCommunicationsParameters.shows (fun o => by simp [IntercomControlPdu.members, RadioCommunicationsFamilyPdu.members, Pdu.members, PduSuperclass.members, attrOf])

end Dis
