import Verif.Proof.HeapClasses1
import Verif.Model.Heap2
import Verif.Spec.HeapFields
import Verif.Model.InPlace4

/-!
# Methods on a memory of objects, part 2

Generated by `tools/genheap.py`.
-/

set_option linter.unusedVariables false
set_option linter.unusedSimpArgs false

namespace Dis

theorem LiveSimulationAddress.inits (ex : List (String × Tree)) : Inits (fun self => LiveSimulationAddress.initHeap self)
      (([("liveSiteNumber", .sc .absent), ("liveApplicationNumber", .sc .absent)] : List (String × Tree)) ++ ex)
      (LiveSimulationAddress.members {} ++ ex) := by
  unfold LiveSimulationAddress.initHeap
  refine .bind (.set' (by simp [attrOf_putAttr_isSome, attrOf, LiveSimulationAddress.members])) ?_
  exact .cast (.set' (by simp [attrOf_putAttr_isSome, attrOf, LiveSimulationAddress.members]))
    (by simp [putAttr, LiveSimulationAddress.members, Tree.ints, Tree.objs, Tree.optInt, Tree.optObj, Tree.intOr])

theorem LiveSimulationAddress.makesNew : MakesNew LiveSimulationAddress.newHeap (.obj (LiveSimulationAddress.members LiveSimulationAddress.init)) :=
  .new (.cast (LiveSimulationAddress.inits []) (List.append_nil _))

theorem LiveSimulationAddress.refines : Refines LiveSimulationAddress.members LiveSimulationAddress.parseInto LiveSimulationAddress.parseHeap := by
  unfold LiveSimulationAddress.parseInto LiveSimulationAddress.parseHeap
  refine .bind .read fun _ => ?_
  refine .bind (.set' (fun o => by simp [LiveSimulationAddress.members, attrOf]) (fun o => by simp [LiveSimulationAddress.members, putAttr, Tree.optInt, Tree.intOr])) fun _ => ?_
  refine .bind .read fun _ => ?_
  refine .bind (.set' (fun o => by simp [LiveSimulationAddress.members, attrOf]) (fun o => by simp [LiveSimulationAddress.members, putAttr, Tree.optInt, Tree.intOr])) fun _ => ?_
  exact .pure

theorem LiveSimulationAddress.shows : Shows LiveSimulationAddress.members LiveSimulationAddress.serialize LiveSimulationAddress.serializeHeap := by
  unfold LiveSimulationAddress.serialize LiveSimulationAddress.serializeHeap
  refine .bind (.putInt (fun o => by simp [LiveSimulationAddress.members, attrOf])) ?_
  exact .putInt (fun o => by simp [LiveSimulationAddress.members, attrOf])

theorem EntityMarking.inits (ex : List (String × Tree)) : Inits (fun self => EntityMarking.initHeap self)
      (([("characterSet", .sc .absent), ("characters", .sc .absent)] : List (String × Tree)) ++ ex)
      (EntityMarking.members {} ++ ex) := by
  unfold EntityMarking.initHeap
  refine .bind (.set' (by simp [attrOf_putAttr_isSome, attrOf, EntityMarking.members])) ?_
  exact .cast (.setOr' (.zeros 11) (by simp [attrOf_putAttr_isSome, attrOf, EntityMarking.members]))
    (by simp [putAttr, EntityMarking.members, Tree.ints, Tree.objs, Tree.optInt, Tree.optObj, Tree.intOr])

theorem EntityMarking.makesNew : MakesNew EntityMarking.newHeap (.obj (EntityMarking.members EntityMarking.init)) :=
  .new (.cast (EntityMarking.inits []) (List.append_nil _))

theorem EntityMarking.refines : Refines EntityMarking.members EntityMarking.parseInto EntityMarking.parseHeap := by
  unfold EntityMarking.parseInto EntityMarking.parseHeap
  refine .bind .read fun _ => ?_
  refine .bind (.set' (fun o => by simp [EntityMarking.members, attrOf]) (fun o => by simp [EntityMarking.members, putAttr, Tree.optInt, Tree.intOr])) fun _ => ?_
  refine .bind (.fill ⟨fun _ _ => rfl, fun _ _ _ => rfl, fun _ => rfl⟩ (fun o => by simp [EntityMarking.members, attrOf]) (fun o v => by simp [EntityMarking.members, putAttr, Tree.optInt, Tree.intOr])) fun _ => ?_
  exact .pure

theorem EntityMarking.shows : Shows EntityMarking.members EntityMarking.serialize EntityMarking.serializeHeap := by
  unfold EntityMarking.serialize EntityMarking.serializeHeap
  refine .bind (.putInt (fun o => by simp [EntityMarking.members, attrOf])) ?_
  exact .items (fun o => by simp [EntityMarking.members, attrOf])

theorem UAFundamentalParameter.inits (ex : List (String × Tree)) : Inits (fun self => UAFundamentalParameter.initHeap self)
      (([("activeEmissionParameterIndex", .sc .absent), ("scanPattern", .sc .absent), ("beamCenterAzimuthHorizontal", .sc .absent), ("azimuthalBeamwidthHorizontal", .sc .absent), ("beamCenterDepressionElevation", .sc .absent), ("beamwidthDownElevation", .sc .absent)] : List (String × Tree)) ++ ex)
      (UAFundamentalParameter.members {} ++ ex) := by
  unfold UAFundamentalParameter.initHeap
  refine .bind (.set' (by simp [attrOf_putAttr_isSome, attrOf, UAFundamentalParameter.members])) ?_
  refine .bind (.set' (by simp [attrOf_putAttr_isSome, attrOf, UAFundamentalParameter.members])) ?_
  refine .bind (.set' (by simp [attrOf_putAttr_isSome, attrOf, UAFundamentalParameter.members])) ?_
  refine .bind (.set' (by simp [attrOf_putAttr_isSome, attrOf, UAFundamentalParameter.members])) ?_
  refine .bind (.set' (by simp [attrOf_putAttr_isSome, attrOf, UAFundamentalParameter.members])) ?_
  exact .cast (.set' (by simp [attrOf_putAttr_isSome, attrOf, UAFundamentalParameter.members]))
    (by simp [putAttr, UAFundamentalParameter.members, Tree.ints, Tree.objs, Tree.optInt, Tree.optObj, Tree.intOr])

theorem UAFundamentalParameter.makesNew : MakesNew UAFundamentalParameter.newHeap (.obj (UAFundamentalParameter.members UAFundamentalParameter.init)) :=
  .new (.cast (UAFundamentalParameter.inits []) (List.append_nil _))

theorem UAFundamentalParameter.refines : Refines UAFundamentalParameter.members UAFundamentalParameter.parseInto UAFundamentalParameter.parseHeap := by
  unfold UAFundamentalParameter.parseInto UAFundamentalParameter.parseHeap
  refine .bind .read fun _ => ?_
  refine .bind (.set' (fun o => by simp [UAFundamentalParameter.members, attrOf]) (fun o => by simp [UAFundamentalParameter.members, putAttr, Tree.optInt, Tree.intOr])) fun _ => ?_
  refine .bind .read fun _ => ?_
  refine .bind (.set' (fun o => by simp [UAFundamentalParameter.members, attrOf]) (fun o => by simp [UAFundamentalParameter.members, putAttr, Tree.optInt, Tree.intOr])) fun _ => ?_
  refine .bind .read fun _ => ?_
  refine .bind (.set' (fun o => by simp [UAFundamentalParameter.members, attrOf]) (fun o => by simp [UAFundamentalParameter.members, putAttr, Tree.optInt, Tree.intOr])) fun _ => ?_
  refine .bind .read fun _ => ?_
  refine .bind (.set' (fun o => by simp [UAFundamentalParameter.members, attrOf]) (fun o => by simp [UAFundamentalParameter.members, putAttr, Tree.optInt, Tree.intOr])) fun _ => ?_
  refine .bind .read fun _ => ?_
  refine .bind (.set' (fun o => by simp [UAFundamentalParameter.members, attrOf]) (fun o => by simp [UAFundamentalParameter.members, putAttr, Tree.optInt, Tree.intOr])) fun _ => ?_
  refine .bind .read fun _ => ?_
  refine .bind (.set' (fun o => by simp [UAFundamentalParameter.members, attrOf]) (fun o => by simp [UAFundamentalParameter.members, putAttr, Tree.optInt, Tree.intOr])) fun _ => ?_
  exact .pure

theorem UAFundamentalParameter.shows : Shows UAFundamentalParameter.members UAFundamentalParameter.serialize UAFundamentalParameter.serializeHeap := by
  unfold UAFundamentalParameter.serialize UAFundamentalParameter.serializeHeap
  refine .bind (.putInt (fun o => by simp [UAFundamentalParameter.members, attrOf])) ?_
  refine .bind (.putInt (fun o => by simp [UAFundamentalParameter.members, attrOf])) ?_
  refine .bind (.putFloat (fun o => by simp [UAFundamentalParameter.members, attrOf])) ?_
  refine .bind (.putFloat (fun o => by simp [UAFundamentalParameter.members, attrOf])) ?_
  refine .bind (.putFloat (fun o => by simp [UAFundamentalParameter.members, attrOf])) ?_
  exact .putFloat (fun o => by simp [UAFundamentalParameter.members, attrOf])

theorem ExplosionDescriptor.inits (ex : List (String × Tree)) : Inits (fun self => ExplosionDescriptor.initHeap self)
      (([("explodingObject", .sc .absent), ("explosiveMaterial", .sc .absent), ("padding", .sc .absent), ("explosiveForce", .sc .absent)] : List (String × Tree)) ++ ex)
      (ExplosionDescriptor.members {} ++ ex) := by
  unfold ExplosionDescriptor.initHeap
  refine .bind (.setOr' EntityType.makesNew (by simp [attrOf_putAttr_isSome, attrOf, ExplosionDescriptor.members])) ?_
  refine .bind (.set' (by simp [attrOf_putAttr_isSome, attrOf, ExplosionDescriptor.members])) ?_
  refine .bind (.set' (by simp [attrOf_putAttr_isSome, attrOf, ExplosionDescriptor.members])) ?_
  exact .cast (.set' (by simp [attrOf_putAttr_isSome, attrOf, ExplosionDescriptor.members]))
    (by simp [putAttr, ExplosionDescriptor.members, Tree.ints, Tree.objs, Tree.optInt, Tree.optObj, Tree.intOr])

theorem ExplosionDescriptor.makesNew : MakesNew ExplosionDescriptor.newHeap (.obj (ExplosionDescriptor.members ExplosionDescriptor.init)) :=
  .new (.cast (ExplosionDescriptor.inits []) (List.append_nil _))

theorem ExplosionDescriptor.refines : Refines ExplosionDescriptor.members ExplosionDescriptor.parseInto ExplosionDescriptor.parseHeap := by
  unfold ExplosionDescriptor.parseInto ExplosionDescriptor.parseHeap
  refine .bind (.call' EntityType.refines (fun o => by simp [ExplosionDescriptor.members, attrOf]) (fun o v => by simp [ExplosionDescriptor.members, putAttr, Tree.optInt, Tree.intOr])) fun _ => ?_
  refine .bind .read fun _ => ?_
  refine .bind (.set' (fun o => by simp [ExplosionDescriptor.members, attrOf]) (fun o => by simp [ExplosionDescriptor.members, putAttr, Tree.optInt, Tree.intOr])) fun _ => ?_
  refine .bind .read fun _ => ?_
  refine .bind (.set' (fun o => by simp [ExplosionDescriptor.members, attrOf]) (fun o => by simp [ExplosionDescriptor.members, putAttr, Tree.optInt, Tree.intOr])) fun _ => ?_
  refine .bind .read fun _ => ?_
  refine .bind (.set' (fun o => by simp [ExplosionDescriptor.members, attrOf]) (fun o => by simp [ExplosionDescriptor.members, putAttr, Tree.optInt, Tree.intOr])) fun _ => ?_
  exact .pure

theorem ExplosionDescriptor.shows : Shows ExplosionDescriptor.members ExplosionDescriptor.serialize ExplosionDescriptor.serializeHeap := by
  unfold ExplosionDescriptor.serialize ExplosionDescriptor.serializeHeap
  refine .bind (.call EntityType.shows (fun o => by simp [ExplosionDescriptor.members, attrOf])) ?_
  refine .bind (.putInt (fun o => by simp [ExplosionDescriptor.members, attrOf])) ?_
  refine .bind (.putInt (fun o => by simp [ExplosionDescriptor.members, attrOf])) ?_
  exact .putFloat (fun o => by simp [ExplosionDescriptor.members, attrOf])

theorem ClockTime.inits (ex : List (String × Tree)) : Inits (fun self => ClockTime.initHeap self)
      (([("hour", .sc .absent), ("timePastHour", .sc .absent)] : List (String × Tree)) ++ ex)
      (ClockTime.members {} ++ ex) := by
  unfold ClockTime.initHeap
  refine .bind (.set' (by simp [attrOf_putAttr_isSome, attrOf, ClockTime.members])) ?_
  exact .cast (.set' (by simp [attrOf_putAttr_isSome, attrOf, ClockTime.members]))
    (by simp [putAttr, ClockTime.members, Tree.ints, Tree.objs, Tree.optInt, Tree.optObj, Tree.intOr])

theorem ClockTime.makesNew : MakesNew ClockTime.newHeap (.obj (ClockTime.members ClockTime.init)) :=
  .new (.cast (ClockTime.inits []) (List.append_nil _))

theorem ClockTime.refines : Refines ClockTime.members ClockTime.parseInto ClockTime.parseHeap := by
  unfold ClockTime.parseInto ClockTime.parseHeap
  refine .bind .read fun _ => ?_
  refine .bind (.set' (fun o => by simp [ClockTime.members, attrOf]) (fun o => by simp [ClockTime.members, putAttr, Tree.optInt, Tree.intOr])) fun _ => ?_
  refine .bind .read fun _ => ?_
  refine .bind (.set' (fun o => by simp [ClockTime.members, attrOf]) (fun o => by simp [ClockTime.members, putAttr, Tree.optInt, Tree.intOr])) fun _ => ?_
  exact .pure

theorem ClockTime.shows : Shows ClockTime.members ClockTime.serialize ClockTime.serializeHeap := by
  unfold ClockTime.serialize ClockTime.serializeHeap
  refine .bind (.putInt (fun o => by simp [ClockTime.members, attrOf])) ?_
  exact .putInt (fun o => by simp [ClockTime.members, attrOf])

theorem SecondaryOperationalData.inits (ex : List (String × Tree)) : Inits (fun self => SecondaryOperationalData.initHeap self)
      (([("operationalData1", .sc .absent), ("operationalData2", .sc .absent), ("numberOfIFFFundamentalParameterRecords", .sc .absent)] : List (String × Tree)) ++ ex)
      (SecondaryOperationalData.members {} ++ ex) := by
  unfold SecondaryOperationalData.initHeap
  refine .bind (.set' (by simp [attrOf_putAttr_isSome, attrOf, SecondaryOperationalData.members])) ?_
  refine .bind (.set' (by simp [attrOf_putAttr_isSome, attrOf, SecondaryOperationalData.members])) ?_
  exact .cast (.set' (by simp [attrOf_putAttr_isSome, attrOf, SecondaryOperationalData.members]))
    (by simp [putAttr, SecondaryOperationalData.members, Tree.ints, Tree.objs, Tree.optInt, Tree.optObj, Tree.intOr])

theorem SecondaryOperationalData.makesNew : MakesNew SecondaryOperationalData.newHeap (.obj (SecondaryOperationalData.members SecondaryOperationalData.init)) :=
  .new (.cast (SecondaryOperationalData.inits []) (List.append_nil _))

theorem SecondaryOperationalData.refines : Refines SecondaryOperationalData.members SecondaryOperationalData.parseInto SecondaryOperationalData.parseHeap := by
  unfold SecondaryOperationalData.parseInto SecondaryOperationalData.parseHeap
  refine .bind .read fun _ => ?_
  refine .bind (.set' (fun o => by simp [SecondaryOperationalData.members, attrOf]) (fun o => by simp [SecondaryOperationalData.members, putAttr, Tree.optInt, Tree.intOr])) fun _ => ?_
  refine .bind .read fun _ => ?_
  refine .bind (.set' (fun o => by simp [SecondaryOperationalData.members, attrOf]) (fun o => by simp [SecondaryOperationalData.members, putAttr, Tree.optInt, Tree.intOr])) fun _ => ?_
  refine .bind .read fun _ => ?_
  refine .bind (.set' (fun o => by simp [SecondaryOperationalData.members, attrOf]) (fun o => by simp [SecondaryOperationalData.members, putAttr, Tree.optInt, Tree.intOr])) fun _ => ?_
  exact .pure

theorem SecondaryOperationalData.shows : Shows SecondaryOperationalData.members SecondaryOperationalData.serialize SecondaryOperationalData.serializeHeap := by
  unfold SecondaryOperationalData.serialize SecondaryOperationalData.serializeHeap
  refine .bind (.putInt (fun o => by simp [SecondaryOperationalData.members, attrOf])) ?_
  refine .bind (.putInt (fun o => by simp [SecondaryOperationalData.members, attrOf])) ?_
  exact .putInt (fun o => by simp [SecondaryOperationalData.members, attrOf])

theorem EnvironmentType.inits (ex : List (String × Tree)) : Inits (fun self => EnvironmentType.initHeap self)
      (([("entityKind", .sc .absent), ("domain", .sc .absent), ("entityClass", .sc .absent), ("category", .sc .absent), ("subcategory", .sc .absent), ("specific", .sc .absent), ("extra", .sc .absent)] : List (String × Tree)) ++ ex)
      (EnvironmentType.members {} ++ ex) := by
  unfold EnvironmentType.initHeap
  refine .bind (.set' (by simp [attrOf_putAttr_isSome, attrOf, EnvironmentType.members])) ?_
  refine .bind (.set' (by simp [attrOf_putAttr_isSome, attrOf, EnvironmentType.members])) ?_
  refine .bind (.set' (by simp [attrOf_putAttr_isSome, attrOf, EnvironmentType.members])) ?_
  refine .bind (.set' (by simp [attrOf_putAttr_isSome, attrOf, EnvironmentType.members])) ?_
  refine .bind (.set' (by simp [attrOf_putAttr_isSome, attrOf, EnvironmentType.members])) ?_
  refine .bind (.set' (by simp [attrOf_putAttr_isSome, attrOf, EnvironmentType.members])) ?_
  exact .cast (.set' (by simp [attrOf_putAttr_isSome, attrOf, EnvironmentType.members]))
    (by simp [putAttr, EnvironmentType.members, Tree.ints, Tree.objs, Tree.optInt, Tree.optObj, Tree.intOr])

theorem EnvironmentType.makesNew : MakesNew EnvironmentType.newHeap (.obj (EnvironmentType.members EnvironmentType.init)) :=
  .new (.cast (EnvironmentType.inits []) (List.append_nil _))

theorem EnvironmentType.refines : Refines EnvironmentType.members EnvironmentType.parseInto EnvironmentType.parseHeap := by
  unfold EnvironmentType.parseInto EnvironmentType.parseHeap
  refine .bind .read fun _ => ?_
  refine .bind (.set' (fun o => by simp [EnvironmentType.members, attrOf]) (fun o => by simp [EnvironmentType.members, putAttr, Tree.optInt, Tree.intOr])) fun _ => ?_
  refine .bind .read fun _ => ?_
  refine .bind (.set' (fun o => by simp [EnvironmentType.members, attrOf]) (fun o => by simp [EnvironmentType.members, putAttr, Tree.optInt, Tree.intOr])) fun _ => ?_
  refine .bind .read fun _ => ?_
  refine .bind (.set' (fun o => by simp [EnvironmentType.members, attrOf]) (fun o => by simp [EnvironmentType.members, putAttr, Tree.optInt, Tree.intOr])) fun _ => ?_
  refine .bind .read fun _ => ?_
  refine .bind (.set' (fun o => by simp [EnvironmentType.members, attrOf]) (fun o => by simp [EnvironmentType.members, putAttr, Tree.optInt, Tree.intOr])) fun _ => ?_
  refine .bind .read fun _ => ?_
  refine .bind (.set' (fun o => by simp [EnvironmentType.members, attrOf]) (fun o => by simp [EnvironmentType.members, putAttr, Tree.optInt, Tree.intOr])) fun _ => ?_
  refine .bind .read fun _ => ?_
  refine .bind (.set' (fun o => by simp [EnvironmentType.members, attrOf]) (fun o => by simp [EnvironmentType.members, putAttr, Tree.optInt, Tree.intOr])) fun _ => ?_
  refine .bind .read fun _ => ?_
  refine .bind (.set' (fun o => by simp [EnvironmentType.members, attrOf]) (fun o => by simp [EnvironmentType.members, putAttr, Tree.optInt, Tree.intOr])) fun _ => ?_
  exact .pure

theorem EnvironmentType.shows : Shows EnvironmentType.members EnvironmentType.serialize EnvironmentType.serializeHeap := by
  unfold EnvironmentType.serialize EnvironmentType.serializeHeap
  refine .bind (.putInt (fun o => by simp [EnvironmentType.members, attrOf])) ?_
  refine .bind (.putInt (fun o => by simp [EnvironmentType.members, attrOf])) ?_
  refine .bind (.putInt (fun o => by simp [EnvironmentType.members, attrOf])) ?_
  refine .bind (.putInt (fun o => by simp [EnvironmentType.members, attrOf])) ?_
  refine .bind (.putInt (fun o => by simp [EnvironmentType.members, attrOf])) ?_
  refine .bind (.putInt (fun o => by simp [EnvironmentType.members, attrOf])) ?_
  exact .putInt (fun o => by simp [EnvironmentType.members, attrOf])

theorem TotalRecordSets.inits (ex : List (String × Tree)) : Inits (fun self => TotalRecordSets.initHeap self)
      (([("totalRecordSets", .sc .absent), ("padding", .sc .absent)] : List (String × Tree)) ++ ex)
      (TotalRecordSets.members {} ++ ex) := by
  unfold TotalRecordSets.initHeap
  refine .bind (.set' (by simp [attrOf_putAttr_isSome, attrOf, TotalRecordSets.members])) ?_
  exact .cast (.set' (by simp [attrOf_putAttr_isSome, attrOf, TotalRecordSets.members]))
    (by simp [putAttr, TotalRecordSets.members, Tree.ints, Tree.objs, Tree.optInt, Tree.optObj, Tree.intOr])

theorem TotalRecordSets.makesNew : MakesNew TotalRecordSets.newHeap (.obj (TotalRecordSets.members TotalRecordSets.init)) :=
  .new (.cast (TotalRecordSets.inits []) (List.append_nil _))

theorem TotalRecordSets.refines : Refines TotalRecordSets.members TotalRecordSets.parseInto TotalRecordSets.parseHeap := by
  unfold TotalRecordSets.parseInto TotalRecordSets.parseHeap
  refine .bind .read fun _ => ?_
  refine .bind (.set' (fun o => by simp [TotalRecordSets.members, attrOf]) (fun o => by simp [TotalRecordSets.members, putAttr, Tree.optInt, Tree.intOr])) fun _ => ?_
  refine .bind .read fun _ => ?_
  refine .bind (.set' (fun o => by simp [TotalRecordSets.members, attrOf]) (fun o => by simp [TotalRecordSets.members, putAttr, Tree.optInt, Tree.intOr])) fun _ => ?_
  exact .pure

theorem TotalRecordSets.shows : Shows TotalRecordSets.members TotalRecordSets.serialize TotalRecordSets.serializeHeap := by
  unfold TotalRecordSets.serialize TotalRecordSets.serializeHeap
  refine .bind (.putInt (fun o => by simp [TotalRecordSets.members, attrOf])) ?_
  exact .putInt (fun o => by simp [TotalRecordSets.members, attrOf])

theorem MineEntityIdentifier.inits (ex : List (String × Tree)) : Inits (fun self => MineEntityIdentifier.initHeap self)
      (([("simulationAddress", .sc .absent), ("mineEntityNumber", .sc .absent)] : List (String × Tree)) ++ ex)
      (MineEntityIdentifier.members {} ++ ex) := by
  unfold MineEntityIdentifier.initHeap
  refine .bind (.setOr' SimulationAddress.makesNew (by simp [attrOf_putAttr_isSome, attrOf, MineEntityIdentifier.members])) ?_
  exact .cast (.set' (by simp [attrOf_putAttr_isSome, attrOf, MineEntityIdentifier.members]))
    (by simp [putAttr, MineEntityIdentifier.members, Tree.ints, Tree.objs, Tree.optInt, Tree.optObj, Tree.intOr])

theorem MineEntityIdentifier.makesNew : MakesNew MineEntityIdentifier.newHeap (.obj (MineEntityIdentifier.members MineEntityIdentifier.init)) :=
  .new (.cast (MineEntityIdentifier.inits []) (List.append_nil _))

theorem MineEntityIdentifier.refines : Refines MineEntityIdentifier.members MineEntityIdentifier.parseInto MineEntityIdentifier.parseHeap := by
  unfold MineEntityIdentifier.parseInto MineEntityIdentifier.parseHeap
  refine .bind (.call' SimulationAddress.refines (fun o => by simp [MineEntityIdentifier.members, attrOf]) (fun o v => by simp [MineEntityIdentifier.members, putAttr, Tree.optInt, Tree.intOr])) fun _ => ?_
  refine .bind .read fun _ => ?_
  refine .bind (.set' (fun o => by simp [MineEntityIdentifier.members, attrOf]) (fun o => by simp [MineEntityIdentifier.members, putAttr, Tree.optInt, Tree.intOr])) fun _ => ?_
  exact .pure

theorem MineEntityIdentifier.shows : Shows MineEntityIdentifier.members MineEntityIdentifier.serialize MineEntityIdentifier.serializeHeap := by
  unfold MineEntityIdentifier.serialize MineEntityIdentifier.serializeHeap
  refine .bind (.call SimulationAddress.shows (fun o => by simp [MineEntityIdentifier.members, attrOf])) ?_
  exact .putInt (fun o => by simp [MineEntityIdentifier.members, attrOf])

theorem Relationship.inits (ex : List (String × Tree)) : Inits (fun self => Relationship.initHeap self)
      (([("nature", .sc .absent), ("position", .sc .absent)] : List (String × Tree)) ++ ex)
      (Relationship.members {} ++ ex) := by
  unfold Relationship.initHeap
  refine .bind (.set' (by simp [attrOf_putAttr_isSome, attrOf, Relationship.members])) ?_
  exact .cast (.set' (by simp [attrOf_putAttr_isSome, attrOf, Relationship.members]))
    (by simp [putAttr, Relationship.members, Tree.ints, Tree.objs, Tree.optInt, Tree.optObj, Tree.intOr])

theorem Relationship.makesNew : MakesNew Relationship.newHeap (.obj (Relationship.members Relationship.init)) :=
  .new (.cast (Relationship.inits []) (List.append_nil _))

theorem Relationship.refines : Refines Relationship.members Relationship.parseInto Relationship.parseHeap := by
  unfold Relationship.parseInto Relationship.parseHeap
  refine .bind .read fun _ => ?_
  refine .bind (.set' (fun o => by simp [Relationship.members, attrOf]) (fun o => by simp [Relationship.members, putAttr, Tree.optInt, Tree.intOr])) fun _ => ?_
  refine .bind .read fun _ => ?_
  refine .bind (.set' (fun o => by simp [Relationship.members, attrOf]) (fun o => by simp [Relationship.members, putAttr, Tree.optInt, Tree.intOr])) fun _ => ?_
  exact .pure

theorem Relationship.shows : Shows Relationship.members Relationship.serialize Relationship.serializeHeap := by
  unfold Relationship.serialize Relationship.serializeHeap
  refine .bind (.putInt (fun o => by simp [Relationship.members, attrOf])) ?_
  exact .putInt (fun o => by simp [Relationship.members, attrOf])

theorem EEFundamentalParameterData.inits (ex : List (String × Tree)) : Inits (fun self => EEFundamentalParameterData.initHeap self)
      (([("frequency", .sc .absent), ("frequencyRange", .sc .absent), ("effectiveRadiatedPower", .sc .absent), ("pulseRepetitionFrequency", .sc .absent), ("pulseWidth", .sc .absent), ("beamAzimuthCenter", .sc .absent), ("beamAzimuthSweep", .sc .absent), ("beamElevationCenter", .sc .absent), ("beamElevationSweep", .sc .absent), ("beamSweepSync", .sc .absent)] : List (String × Tree)) ++ ex)
      (EEFundamentalParameterData.members {} ++ ex) := by
  unfold EEFundamentalParameterData.initHeap
  refine .bind (.set' (by simp [attrOf_putAttr_isSome, attrOf, EEFundamentalParameterData.members])) ?_
  refine .bind (.set' (by simp [attrOf_putAttr_isSome, attrOf, EEFundamentalParameterData.members])) ?_
  refine .bind (.set' (by simp [attrOf_putAttr_isSome, attrOf, EEFundamentalParameterData.members])) ?_
  refine .bind (.set' (by simp [attrOf_putAttr_isSome, attrOf, EEFundamentalParameterData.members])) ?_
  refine .bind (.set' (by simp [attrOf_putAttr_isSome, attrOf, EEFundamentalParameterData.members])) ?_
  refine .bind (.set' (by simp [attrOf_putAttr_isSome, attrOf, EEFundamentalParameterData.members])) ?_
  refine .bind (.set' (by simp [attrOf_putAttr_isSome, attrOf, EEFundamentalParameterData.members])) ?_
  refine .bind (.set' (by simp [attrOf_putAttr_isSome, attrOf, EEFundamentalParameterData.members])) ?_
  refine .bind (.set' (by simp [attrOf_putAttr_isSome, attrOf, EEFundamentalParameterData.members])) ?_
  exact .cast (.set' (by simp [attrOf_putAttr_isSome, attrOf, EEFundamentalParameterData.members]))
    (by simp [putAttr, EEFundamentalParameterData.members, Tree.ints, Tree.objs, Tree.optInt, Tree.optObj, Tree.intOr])

theorem EEFundamentalParameterData.makesNew : MakesNew EEFundamentalParameterData.newHeap (.obj (EEFundamentalParameterData.members EEFundamentalParameterData.init)) :=
  .new (.cast (EEFundamentalParameterData.inits []) (List.append_nil _))

theorem EEFundamentalParameterData.refines : Refines EEFundamentalParameterData.members EEFundamentalParameterData.parseInto EEFundamentalParameterData.parseHeap := by
  unfold EEFundamentalParameterData.parseInto EEFundamentalParameterData.parseHeap
  refine .bind .read fun _ => ?_
  refine .bind (.set' (fun o => by simp [EEFundamentalParameterData.members, attrOf]) (fun o => by simp [EEFundamentalParameterData.members, putAttr, Tree.optInt, Tree.intOr])) fun _ => ?_
  refine .bind .read fun _ => ?_
  refine .bind (.set' (fun o => by simp [EEFundamentalParameterData.members, attrOf]) (fun o => by simp [EEFundamentalParameterData.members, putAttr, Tree.optInt, Tree.intOr])) fun _ => ?_
  refine .bind .read fun _ => ?_
  refine .bind (.set' (fun o => by simp [EEFundamentalParameterData.members, attrOf]) (fun o => by simp [EEFundamentalParameterData.members, putAttr, Tree.optInt, Tree.intOr])) fun _ => ?_
  refine .bind .read fun _ => ?_
  refine .bind (.set' (fun o => by simp [EEFundamentalParameterData.members, attrOf]) (fun o => by simp [EEFundamentalParameterData.members, putAttr, Tree.optInt, Tree.intOr])) fun _ => ?_
  refine .bind .read fun _ => ?_
  refine .bind (.set' (fun o => by simp [EEFundamentalParameterData.members, attrOf]) (fun o => by simp [EEFundamentalParameterData.members, putAttr, Tree.optInt, Tree.intOr])) fun _ => ?_
  refine .bind .read fun _ => ?_
  refine .bind (.set' (fun o => by simp [EEFundamentalParameterData.members, attrOf]) (fun o => by simp [EEFundamentalParameterData.members, putAttr, Tree.optInt, Tree.intOr])) fun _ => ?_
  refine .bind .read fun _ => ?_
  refine .bind (.set' (fun o => by simp [EEFundamentalParameterData.members, attrOf]) (fun o => by simp [EEFundamentalParameterData.members, putAttr, Tree.optInt, Tree.intOr])) fun _ => ?_
  refine .bind .read fun _ => ?_
  refine .bind (.set' (fun o => by simp [EEFundamentalParameterData.members, attrOf]) (fun o => by simp [EEFundamentalParameterData.members, putAttr, Tree.optInt, Tree.intOr])) fun _ => ?_
  refine .bind .read fun _ => ?_
  refine .bind (.set' (fun o => by simp [EEFundamentalParameterData.members, attrOf]) (fun o => by simp [EEFundamentalParameterData.members, putAttr, Tree.optInt, Tree.intOr])) fun _ => ?_
  refine .bind .read fun _ => ?_
  refine .bind (.set' (fun o => by simp [EEFundamentalParameterData.members, attrOf]) (fun o => by simp [EEFundamentalParameterData.members, putAttr, Tree.optInt, Tree.intOr])) fun _ => ?_
  exact .pure

theorem EEFundamentalParameterData.shows : Shows EEFundamentalParameterData.members EEFundamentalParameterData.serialize EEFundamentalParameterData.serializeHeap := by
  unfold EEFundamentalParameterData.serialize EEFundamentalParameterData.serializeHeap
  refine .bind (.putFloat (fun o => by simp [EEFundamentalParameterData.members, attrOf])) ?_
  refine .bind (.putFloat (fun o => by simp [EEFundamentalParameterData.members, attrOf])) ?_
  refine .bind (.putFloat (fun o => by simp [EEFundamentalParameterData.members, attrOf])) ?_
  refine .bind (.putFloat (fun o => by simp [EEFundamentalParameterData.members, attrOf])) ?_
  refine .bind (.putFloat (fun o => by simp [EEFundamentalParameterData.members, attrOf])) ?_
  refine .bind (.putFloat (fun o => by simp [EEFundamentalParameterData.members, attrOf])) ?_
  refine .bind (.putFloat (fun o => by simp [EEFundamentalParameterData.members, attrOf])) ?_
  refine .bind (.putFloat (fun o => by simp [EEFundamentalParameterData.members, attrOf])) ?_
  refine .bind (.putFloat (fun o => by simp [EEFundamentalParameterData.members, attrOf])) ?_
  exact .putFloat (fun o => by simp [EEFundamentalParameterData.members, attrOf])

theorem JammingTechnique.inits (ex : List (String × Tree)) : Inits (fun self => JammingTechnique.initHeap self)
      (([("kind", .sc .absent), ("category", .sc .absent), ("subcategory", .sc .absent), ("specific", .sc .absent)] : List (String × Tree)) ++ ex)
      (JammingTechnique.members {} ++ ex) := by
  unfold JammingTechnique.initHeap
  refine .bind (.set' (by simp [attrOf_putAttr_isSome, attrOf, JammingTechnique.members])) ?_
  refine .bind (.set' (by simp [attrOf_putAttr_isSome, attrOf, JammingTechnique.members])) ?_
  refine .bind (.set' (by simp [attrOf_putAttr_isSome, attrOf, JammingTechnique.members])) ?_
  exact .cast (.set' (by simp [attrOf_putAttr_isSome, attrOf, JammingTechnique.members]))
    (by simp [putAttr, JammingTechnique.members, Tree.ints, Tree.objs, Tree.optInt, Tree.optObj, Tree.intOr])

theorem JammingTechnique.makesNew : MakesNew JammingTechnique.newHeap (.obj (JammingTechnique.members JammingTechnique.init)) :=
  .new (.cast (JammingTechnique.inits []) (List.append_nil _))

theorem JammingTechnique.refines : Refines JammingTechnique.members JammingTechnique.parseInto JammingTechnique.parseHeap := by
  unfold JammingTechnique.parseInto JammingTechnique.parseHeap
  refine .bind .read fun _ => ?_
  refine .bind (.set' (fun o => by simp [JammingTechnique.members, attrOf]) (fun o => by simp [JammingTechnique.members, putAttr, Tree.optInt, Tree.intOr])) fun _ => ?_
  refine .bind .read fun _ => ?_
  refine .bind (.set' (fun o => by simp [JammingTechnique.members, attrOf]) (fun o => by simp [JammingTechnique.members, putAttr, Tree.optInt, Tree.intOr])) fun _ => ?_
  refine .bind .read fun _ => ?_
  refine .bind (.set' (fun o => by simp [JammingTechnique.members, attrOf]) (fun o => by simp [JammingTechnique.members, putAttr, Tree.optInt, Tree.intOr])) fun _ => ?_
  refine .bind .read fun _ => ?_
  refine .bind (.set' (fun o => by simp [JammingTechnique.members, attrOf]) (fun o => by simp [JammingTechnique.members, putAttr, Tree.optInt, Tree.intOr])) fun _ => ?_
  exact .pure

theorem JammingTechnique.shows : Shows JammingTechnique.members JammingTechnique.serialize JammingTechnique.serializeHeap := by
  unfold JammingTechnique.serialize JammingTechnique.serializeHeap
  refine .bind (.putInt (fun o => by simp [JammingTechnique.members, attrOf])) ?_
  refine .bind (.putInt (fun o => by simp [JammingTechnique.members, attrOf])) ?_
  refine .bind (.putInt (fun o => by simp [JammingTechnique.members, attrOf])) ?_
  exact .putInt (fun o => by simp [JammingTechnique.members, attrOf])

theorem VariableDatum.inits (ex : List (String × Tree)) : Inits (fun self => VariableDatum.initHeap self)
      (([("variableDatumID", .sc .absent), ("variableDatumLength", .sc .absent), ("variableData", .sc .absent)] : List (String × Tree)) ++ ex)
      (VariableDatum.members {} ++ ex) := by
  unfold VariableDatum.initHeap
  refine .bind (.set' (by simp [attrOf_putAttr_isSome, attrOf, VariableDatum.members])) ?_
  refine .bind (.set' (by simp [attrOf_putAttr_isSome, attrOf, VariableDatum.members])) ?_
  exact .cast (.setOr' .empty (by simp [attrOf_putAttr_isSome, attrOf, VariableDatum.members]))
    (by simp [putAttr, VariableDatum.members, Tree.ints, Tree.objs, Tree.optInt, Tree.optObj, Tree.intOr])

theorem VariableDatum.makesNew : MakesNew VariableDatum.newHeap (.obj (VariableDatum.members VariableDatum.init)) :=
  .new (.cast (VariableDatum.inits []) (List.append_nil _))

theorem VariableDatum.refines : Refines VariableDatum.members VariableDatum.parseInto VariableDatum.parseHeap := by
  unfold VariableDatum.parseInto VariableDatum.parseHeap
  refine .bind .read fun _ => ?_
  refine .bind (.set' (fun o => by simp [VariableDatum.members, attrOf]) (fun o => by simp [VariableDatum.members, putAttr, Tree.optInt, Tree.intOr])) fun _ => ?_
  refine .bind .read fun _ => ?_
  refine .bind (.set' (fun o => by simp [VariableDatum.members, attrOf]) (fun o => by simp [VariableDatum.members, putAttr, Tree.optInt, Tree.intOr])) fun _ => ?_
  refine .bind (.reads (fun o => by simp [VariableDatum.members, attrOf]) (fun o v => by simp [VariableDatum.members, putAttr, Tree.optInt, Tree.intOr])) fun _ => ?_
  refine .bind .read fun _ => ?_
  exact .pure

theorem VariableDatum.shows : Shows VariableDatum.members VariableDatum.serialize VariableDatum.serializeHeap := by
  unfold VariableDatum.serialize VariableDatum.serializeHeap
  refine .bind (.putInt (fun o => by simp [VariableDatum.members, attrOf])) ?_
  refine .bind (.putInt (fun o => by simp [VariableDatum.members, attrOf])) ?_
  refine .bind (.withInt (fun o => by simp [VariableDatum.members, attrOf]) (w := fun v (o : VariableDatum) => W.forRange 0 (v / 8).toNat fun x =>
    W.using (index o.variableData x) write_unsigned_byte) fun v => .items (fun o => by simp [VariableDatum.members, attrOf])) ?_
  exact .withInt (fun o => by simp [VariableDatum.members, attrOf]) (w := fun v (_ : VariableDatum) => W.forRange 0
    (VariableDatum.datumPaddingSizeInBits { variableDatumLength := v } / 8).toNat fun _ => write_unsigned_byte 0) fun v => .range (fun _ => .write) _ 0

theorem DatumSpecification.inits (ex : List (String × Tree)) : Inits (fun self => DatumSpecification.initHeap self)
      (([("fixedDatumRecords", .sc .absent), ("variableDatumRecords", .sc .absent)] : List (String × Tree)) ++ ex)
      (DatumSpecification.members {} ++ ex) := by
  unfold DatumSpecification.initHeap
  refine .bind (.setOr' .empty (by simp [attrOf_putAttr_isSome, attrOf, DatumSpecification.members])) ?_
  exact .cast (.setOr' .empty (by simp [attrOf_putAttr_isSome, attrOf, DatumSpecification.members]))
    (by simp [putAttr, DatumSpecification.members, Tree.ints, Tree.objs, Tree.optInt, Tree.optObj, Tree.intOr])

theorem DatumSpecification.makesNew : MakesNew DatumSpecification.newHeap (.obj (DatumSpecification.members DatumSpecification.init)) :=
  .new (.cast (DatumSpecification.inits []) (List.append_nil _))

theorem DatumSpecification.refines : Refines DatumSpecification.members DatumSpecification.parseInto DatumSpecification.parseHeap := by
  unfold DatumSpecification.parseInto DatumSpecification.parseHeap
  refine .bind .read fun _ => ?_
  refine .bind .read fun _ => ?_
  refine .bind (.objs FixedDatum.makesNew FixedDatum.refines (fun o => by simp [DatumSpecification.members, attrOf]) (fun o v => by simp [DatumSpecification.members, putAttr, Tree.optInt, Tree.intOr])) fun _ => ?_
  refine .bind (.objs VariableDatum.makesNew VariableDatum.refines (fun o => by simp [DatumSpecification.members, attrOf]) (fun o v => by simp [DatumSpecification.members, putAttr, Tree.optInt, Tree.intOr])) fun _ => ?_
  exact .pure

theorem DatumSpecification.shows : Shows DatumSpecification.members DatumSpecification.serialize DatumSpecification.serializeHeap := by
  unfold DatumSpecification.serialize DatumSpecification.serializeHeap
  refine .bind (.lenObjs (ts := FixedDatum.members) (fun o => by simp [DatumSpecification.members, attrOf])) ?_
  refine .bind (.lenObjs (ts := VariableDatum.members) (fun o => by simp [DatumSpecification.members, attrOf])) ?_
  refine .bind (.eachObj FixedDatum.shows (fun o => by simp [DatumSpecification.members, attrOf])) ?_
  exact .eachObj VariableDatum.shows (fun o => by simp [DatumSpecification.members, attrOf])

theorem DatumSpecification.makesNew' : MakesNew (do
      let a ← H.orNew (.sc .none) (H.alloc (.list []))
      let b ← H.orNew (.sc .none) (H.alloc (.list []))
      DatumSpecification.newHeap a b) (.obj (DatumSpecification.members DatumSpecification.init)) :=
  MakesNew.twoLists (by decide)

theorem Expendable.inits (ex : List (String × Tree)) : Inits (fun self => Expendable.initHeap self)
      (([("expendable", .sc .absent), ("station", .sc .absent), ("quantity", .sc .absent), ("expendableStatus", .sc .absent), ("padding", .sc .absent)] : List (String × Tree)) ++ ex)
      (Expendable.members {} ++ ex) := by
  unfold Expendable.initHeap
  refine .bind (.setOr' EntityType.makesNew (by simp [attrOf_putAttr_isSome, attrOf, Expendable.members])) ?_
  refine .bind (.set' (by simp [attrOf_putAttr_isSome, attrOf, Expendable.members])) ?_
  refine .bind (.set' (by simp [attrOf_putAttr_isSome, attrOf, Expendable.members])) ?_
  refine .bind (.set' (by simp [attrOf_putAttr_isSome, attrOf, Expendable.members])) ?_
  exact .cast (.set' (by simp [attrOf_putAttr_isSome, attrOf, Expendable.members]))
    (by simp [putAttr, Expendable.members, Tree.ints, Tree.objs, Tree.optInt, Tree.optObj, Tree.intOr])

theorem Expendable.makesNew : MakesNew Expendable.newHeap (.obj (Expendable.members Expendable.init)) :=
  .new (.cast (Expendable.inits []) (List.append_nil _))

theorem Expendable.refines : Refines Expendable.members Expendable.parseInto Expendable.parseHeap := by
  unfold Expendable.parseInto Expendable.parseHeap
  refine .bind (.call' EntityType.refines (fun o => by simp [Expendable.members, attrOf]) (fun o v => by simp [Expendable.members, putAttr, Tree.optInt, Tree.intOr])) fun _ => ?_
  refine .bind .read fun _ => ?_
  refine .bind (.set' (fun o => by simp [Expendable.members, attrOf]) (fun o => by simp [Expendable.members, putAttr, Tree.optInt, Tree.intOr])) fun _ => ?_
  refine .bind .read fun _ => ?_
  refine .bind (.set' (fun o => by simp [Expendable.members, attrOf]) (fun o => by simp [Expendable.members, putAttr, Tree.optInt, Tree.intOr])) fun _ => ?_
  refine .bind .read fun _ => ?_
  refine .bind (.set' (fun o => by simp [Expendable.members, attrOf]) (fun o => by simp [Expendable.members, putAttr, Tree.optInt, Tree.intOr])) fun _ => ?_
  refine .bind .read fun _ => ?_
  refine .bind (.set' (fun o => by simp [Expendable.members, attrOf]) (fun o => by simp [Expendable.members, putAttr, Tree.optInt, Tree.intOr])) fun _ => ?_
  exact .pure

theorem Expendable.shows : Shows Expendable.members Expendable.serialize Expendable.serializeHeap := by
  unfold Expendable.serialize Expendable.serializeHeap
  refine .bind (.call EntityType.shows (fun o => by simp [Expendable.members, attrOf])) ?_
  refine .bind (.putInt (fun o => by simp [Expendable.members, attrOf])) ?_
  refine .bind (.putInt (fun o => by simp [Expendable.members, attrOf])) ?_
  refine .bind (.putInt (fun o => by simp [Expendable.members, attrOf])) ?_
  exact .putInt (fun o => by simp [Expendable.members, attrOf])

theorem CommunicationsNodeID.inits (ex : List (String × Tree)) : Inits (fun self => CommunicationsNodeID.initHeap self)
      (([("entityID", .sc .absent), ("elementID", .sc .absent)] : List (String × Tree)) ++ ex)
      (CommunicationsNodeID.members {} ++ ex) := by
  unfold CommunicationsNodeID.initHeap
  refine .bind (.setOr' EntityIdentifier.makesNew (by simp [attrOf_putAttr_isSome, attrOf, CommunicationsNodeID.members])) ?_
  exact .cast (.set' (by simp [attrOf_putAttr_isSome, attrOf, CommunicationsNodeID.members]))
    (by simp [putAttr, CommunicationsNodeID.members, Tree.ints, Tree.objs, Tree.optInt, Tree.optObj, Tree.intOr])

theorem CommunicationsNodeID.makesNew : MakesNew CommunicationsNodeID.newHeap (.obj (CommunicationsNodeID.members CommunicationsNodeID.init)) :=
  .new (.cast (CommunicationsNodeID.inits []) (List.append_nil _))

theorem CommunicationsNodeID.refines : Refines CommunicationsNodeID.members CommunicationsNodeID.parseInto CommunicationsNodeID.parseHeap := by
  unfold CommunicationsNodeID.parseInto CommunicationsNodeID.parseHeap
  refine .bind (.call' EntityIdentifier.refines (fun o => by simp [CommunicationsNodeID.members, attrOf]) (fun o v => by simp [CommunicationsNodeID.members, putAttr, Tree.optInt, Tree.intOr])) fun _ => ?_
  refine .bind .read fun _ => ?_
  refine .bind (.set' (fun o => by simp [CommunicationsNodeID.members, attrOf]) (fun o => by simp [CommunicationsNodeID.members, putAttr, Tree.optInt, Tree.intOr])) fun _ => ?_
  exact .pure

theorem CommunicationsNodeID.shows : Shows CommunicationsNodeID.members CommunicationsNodeID.serialize CommunicationsNodeID.serializeHeap := by
  unfold CommunicationsNodeID.serialize CommunicationsNodeID.serializeHeap
  refine .bind (.call EntityIdentifier.shows (fun o => by simp [CommunicationsNodeID.members, attrOf])) ?_
  exact .putInt (fun o => by simp [CommunicationsNodeID.members, attrOf])

theorem IOCommunicationsNode.inits (ex : List (String × Tree)) : Inits (fun self => IOCommunicationsNode.initHeap self)
      (([("recordType", .sc (.int 5501)), ("recordLength", .sc (.int 16)), ("communcationsNodeType", .sc .absent), ("padding", .sc .absent), ("communicationsNodeID", .sc .absent)] : List (String × Tree)) ++ ex)
      (IOCommunicationsNode.members {} ++ ex) := by
  unfold IOCommunicationsNode.initHeap
  refine .bind (.set' (by simp [attrOf_putAttr_isSome, attrOf, IOCommunicationsNode.members])) ?_
  refine .bind (.set' (by simp [attrOf_putAttr_isSome, attrOf, IOCommunicationsNode.members])) ?_
  exact .cast (.setOr' CommunicationsNodeID.makesNew (by simp [attrOf_putAttr_isSome, attrOf, IOCommunicationsNode.members]))
    (by simp [putAttr, IOCommunicationsNode.members, Tree.ints, Tree.objs, Tree.optInt, Tree.optObj, Tree.intOr])

theorem IOCommunicationsNode.makesNew : MakesNew IOCommunicationsNode.newHeap (.obj (IOCommunicationsNode.members IOCommunicationsNode.init)) :=
  .new (.cast (IOCommunicationsNode.inits []) (List.append_nil _))

theorem IOCommunicationsNode.refines : Refines IOCommunicationsNode.members IOCommunicationsNode.parseInto IOCommunicationsNode.parseHeap := by
  unfold IOCommunicationsNode.parseInto IOCommunicationsNode.parseHeap
  refine .bind .read fun _ => ?_
  refine .bind (.set' (fun o => by simp [IOCommunicationsNode.members, attrOf]) (fun o => by simp [IOCommunicationsNode.members, putAttr, Tree.optInt, Tree.intOr])) fun _ => ?_
  refine .bind .read fun _ => ?_
  refine .bind (.set' (fun o => by simp [IOCommunicationsNode.members, attrOf]) (fun o => by simp [IOCommunicationsNode.members, putAttr, Tree.optInt, Tree.intOr])) fun _ => ?_
  refine .bind .read fun _ => ?_
  refine .bind (.set' (fun o => by simp [IOCommunicationsNode.members, attrOf]) (fun o => by simp [IOCommunicationsNode.members, putAttr, Tree.optInt, Tree.intOr])) fun _ => ?_
  refine .bind .read fun _ => ?_
  refine .bind (.set' (fun o => by simp [IOCommunicationsNode.members, attrOf]) (fun o => by simp [IOCommunicationsNode.members, putAttr, Tree.optInt, Tree.intOr])) fun _ => ?_
  refine .bind (.call' CommunicationsNodeID.refines (fun o => by simp [IOCommunicationsNode.members, attrOf]) (fun o v => by simp [IOCommunicationsNode.members, putAttr, Tree.optInt, Tree.intOr])) fun _ => ?_
  exact .pure

theorem IOCommunicationsNode.shows : Shows IOCommunicationsNode.members IOCommunicationsNode.serialize IOCommunicationsNode.serializeHeap := by
  unfold IOCommunicationsNode.serialize IOCommunicationsNode.serializeHeap
  refine .bind (.putInt (fun o => by simp [IOCommunicationsNode.members, attrOf])) ?_
  refine .bind (.putInt (fun o => by simp [IOCommunicationsNode.members, attrOf])) ?_
  refine .bind (.putInt (fun o => by simp [IOCommunicationsNode.members, attrOf])) ?_
  refine .bind (.putInt (fun o => by simp [IOCommunicationsNode.members, attrOf])) ?_
  exact .call CommunicationsNodeID.shows (fun o => by simp [IOCommunicationsNode.members, attrOf])

theorem LinearSegmentParameter.inits (ex : List (String × Tree)) : Inits (fun self => LinearSegmentParameter.initHeap self)
      (([("segmentNumber", .sc .absent), ("segmentModification", .sc .absent), ("generalSegmentAppearance", .sc .absent), ("specificSegmentAppearance", .sc .absent), ("segmentLocation", .sc .absent), ("segmentOrientation", .sc .absent), ("segmentLength", .sc .absent), ("segmentWidth", .sc .absent), ("segmentHeight", .sc .absent), ("segmentDepth", .sc .absent), ("padding", .sc .absent)] : List (String × Tree)) ++ ex)
      (LinearSegmentParameter.members {} ++ ex) := by
  unfold LinearSegmentParameter.initHeap
  refine .bind (.set' (by simp [attrOf_putAttr_isSome, attrOf, LinearSegmentParameter.members])) ?_
  refine .bind (.set' (by simp [attrOf_putAttr_isSome, attrOf, LinearSegmentParameter.members])) ?_
  refine .bind (.set' (by simp [attrOf_putAttr_isSome, attrOf, LinearSegmentParameter.members])) ?_
  refine .bind (.set' (by simp [attrOf_putAttr_isSome, attrOf, LinearSegmentParameter.members])) ?_
  refine .bind (.setOr' WorldCoordinates.makesNew (by simp [attrOf_putAttr_isSome, attrOf, LinearSegmentParameter.members])) ?_
  refine .bind (.setOr' EulerAngles.makesNew (by simp [attrOf_putAttr_isSome, attrOf, LinearSegmentParameter.members])) ?_
  refine .bind (.set' (by simp [attrOf_putAttr_isSome, attrOf, LinearSegmentParameter.members])) ?_
  refine .bind (.set' (by simp [attrOf_putAttr_isSome, attrOf, LinearSegmentParameter.members])) ?_
  refine .bind (.set' (by simp [attrOf_putAttr_isSome, attrOf, LinearSegmentParameter.members])) ?_
  refine .bind (.set' (by simp [attrOf_putAttr_isSome, attrOf, LinearSegmentParameter.members])) ?_
  exact .cast (.set' (by simp [attrOf_putAttr_isSome, attrOf, LinearSegmentParameter.members]))
    (by simp [putAttr, LinearSegmentParameter.members, Tree.ints, Tree.objs, Tree.optInt, Tree.optObj, Tree.intOr])

theorem LinearSegmentParameter.makesNew : MakesNew LinearSegmentParameter.newHeap (.obj (LinearSegmentParameter.members LinearSegmentParameter.init)) :=
  .new (.cast (LinearSegmentParameter.inits []) (List.append_nil _))

theorem LinearSegmentParameter.refines : Refines LinearSegmentParameter.members LinearSegmentParameter.parseInto LinearSegmentParameter.parseHeap := by
  unfold LinearSegmentParameter.parseInto LinearSegmentParameter.parseHeap
  refine .bind .read fun _ => ?_
  refine .bind (.set' (fun o => by simp [LinearSegmentParameter.members, attrOf]) (fun o => by simp [LinearSegmentParameter.members, putAttr, Tree.optInt, Tree.intOr])) fun _ => ?_
  refine .bind .read fun _ => ?_
  refine .bind (.set' (fun o => by simp [LinearSegmentParameter.members, attrOf]) (fun o => by simp [LinearSegmentParameter.members, putAttr, Tree.optInt, Tree.intOr])) fun _ => ?_
  refine .bind .read fun _ => ?_
  refine .bind (.set' (fun o => by simp [LinearSegmentParameter.members, attrOf]) (fun o => by simp [LinearSegmentParameter.members, putAttr, Tree.optInt, Tree.intOr])) fun _ => ?_
  refine .bind .read fun _ => ?_
  refine .bind (.set' (fun o => by simp [LinearSegmentParameter.members, attrOf]) (fun o => by simp [LinearSegmentParameter.members, putAttr, Tree.optInt, Tree.intOr])) fun _ => ?_
  refine .bind (.call' WorldCoordinates.refines (fun o => by simp [LinearSegmentParameter.members, attrOf]) (fun o v => by simp [LinearSegmentParameter.members, putAttr, Tree.optInt, Tree.intOr])) fun _ => ?_
  refine .bind (.call' EulerAngles.refines (fun o => by simp [LinearSegmentParameter.members, attrOf]) (fun o v => by simp [LinearSegmentParameter.members, putAttr, Tree.optInt, Tree.intOr])) fun _ => ?_
  refine .bind .read fun _ => ?_
  refine .bind (.set' (fun o => by simp [LinearSegmentParameter.members, attrOf]) (fun o => by simp [LinearSegmentParameter.members, putAttr, Tree.optInt, Tree.intOr])) fun _ => ?_
  refine .bind .read fun _ => ?_
  refine .bind (.set' (fun o => by simp [LinearSegmentParameter.members, attrOf]) (fun o => by simp [LinearSegmentParameter.members, putAttr, Tree.optInt, Tree.intOr])) fun _ => ?_
  refine .bind .read fun _ => ?_
  refine .bind (.set' (fun o => by simp [LinearSegmentParameter.members, attrOf]) (fun o => by simp [LinearSegmentParameter.members, putAttr, Tree.optInt, Tree.intOr])) fun _ => ?_
  refine .bind .read fun _ => ?_
  refine .bind (.set' (fun o => by simp [LinearSegmentParameter.members, attrOf]) (fun o => by simp [LinearSegmentParameter.members, putAttr, Tree.optInt, Tree.intOr])) fun _ => ?_
  refine .bind .read fun _ => ?_
  refine .bind (.set' (fun o => by simp [LinearSegmentParameter.members, attrOf]) (fun o => by simp [LinearSegmentParameter.members, putAttr, Tree.optInt, Tree.intOr])) fun _ => ?_
  exact .pure

theorem LinearSegmentParameter.shows : Shows LinearSegmentParameter.members LinearSegmentParameter.serialize LinearSegmentParameter.serializeHeap := by
  unfold LinearSegmentParameter.serialize LinearSegmentParameter.serializeHeap
  refine .bind (.putInt (fun o => by simp [LinearSegmentParameter.members, attrOf])) ?_
  refine .bind (.putInt (fun o => by simp [LinearSegmentParameter.members, attrOf])) ?_
  refine .bind (.putInt (fun o => by simp [LinearSegmentParameter.members, attrOf])) ?_
  refine .bind (.putInt (fun o => by simp [LinearSegmentParameter.members, attrOf])) ?_
  refine .bind (.call WorldCoordinates.shows (fun o => by simp [LinearSegmentParameter.members, attrOf])) ?_
  refine .bind (.call EulerAngles.shows (fun o => by simp [LinearSegmentParameter.members, attrOf])) ?_
  refine .bind (.putFloat (fun o => by simp [LinearSegmentParameter.members, attrOf])) ?_
  refine .bind (.putFloat (fun o => by simp [LinearSegmentParameter.members, attrOf])) ?_
  refine .bind (.putFloat (fun o => by simp [LinearSegmentParameter.members, attrOf])) ?_
  refine .bind (.putFloat (fun o => by simp [LinearSegmentParameter.members, attrOf])) ?_
  exact .putInt (fun o => by simp [LinearSegmentParameter.members, attrOf])

theorem SystemIdentifier.inits (ex : List (String × Tree)) : Inits (fun self => SystemIdentifier.initHeap self)
      (([("systemType", .sc .absent), ("systemName", .sc .absent), ("systemMode", .sc .absent), ("changeOptions", .sc .absent)] : List (String × Tree)) ++ ex)
      (SystemIdentifier.members {} ++ ex) := by
  unfold SystemIdentifier.initHeap
  refine .bind (.set' (by simp [attrOf_putAttr_isSome, attrOf, SystemIdentifier.members])) ?_
  refine .bind (.set' (by simp [attrOf_putAttr_isSome, attrOf, SystemIdentifier.members])) ?_
  refine .bind (.set' (by simp [attrOf_putAttr_isSome, attrOf, SystemIdentifier.members])) ?_
  exact .cast (.setOr' ChangeOptions.makesNew (by simp [attrOf_putAttr_isSome, attrOf, SystemIdentifier.members]))
    (by simp [putAttr, SystemIdentifier.members, Tree.ints, Tree.objs, Tree.optInt, Tree.optObj, Tree.intOr])

theorem SystemIdentifier.makesNew : MakesNew SystemIdentifier.newHeap (.obj (SystemIdentifier.members SystemIdentifier.init)) :=
  .new (.cast (SystemIdentifier.inits []) (List.append_nil _))

theorem SystemIdentifier.refines : Refines SystemIdentifier.members SystemIdentifier.parseInto SystemIdentifier.parseHeap := by
  unfold SystemIdentifier.parseInto SystemIdentifier.parseHeap
  refine .bind .read fun _ => ?_
  refine .bind (.set' (fun o => by simp [SystemIdentifier.members, attrOf]) (fun o => by simp [SystemIdentifier.members, putAttr, Tree.optInt, Tree.intOr])) fun _ => ?_
  refine .bind .read fun _ => ?_
  refine .bind (.set' (fun o => by simp [SystemIdentifier.members, attrOf]) (fun o => by simp [SystemIdentifier.members, putAttr, Tree.optInt, Tree.intOr])) fun _ => ?_
  refine .bind .read fun _ => ?_
  refine .bind (.set' (fun o => by simp [SystemIdentifier.members, attrOf]) (fun o => by simp [SystemIdentifier.members, putAttr, Tree.optInt, Tree.intOr])) fun _ => ?_
  refine .bind (.call' ChangeOptions.refines (fun o => by simp [SystemIdentifier.members, attrOf]) (fun o v => by simp [SystemIdentifier.members, putAttr, Tree.optInt, Tree.intOr])) fun _ => ?_
  exact .pure

theorem SystemIdentifier.shows : Shows SystemIdentifier.members SystemIdentifier.serialize SystemIdentifier.serializeHeap := by
  unfold SystemIdentifier.serialize SystemIdentifier.serializeHeap
  refine .bind (.putInt (fun o => by simp [SystemIdentifier.members, attrOf])) ?_
  refine .bind (.putInt (fun o => by simp [SystemIdentifier.members, attrOf])) ?_
  refine .bind (.putInt (fun o => by simp [SystemIdentifier.members, attrOf])) ?_
  exact .call ChangeOptions.shows (fun o => by simp [SystemIdentifier.members, attrOf])

theorem TrackJamData.inits (ex : List (String × Tree)) : Inits (fun self => TrackJamData.initHeap self)
      (([("entityID", .sc .absent), ("emitterNumber", .sc .absent), ("beamNumber", .sc .absent)] : List (String × Tree)) ++ ex)
      (TrackJamData.members {} ++ ex) := by
  unfold TrackJamData.initHeap
  refine .bind (.setOr' EntityIdentifier.makesNew (by simp [attrOf_putAttr_isSome, attrOf, TrackJamData.members])) ?_
  refine .bind (.set' (by simp [attrOf_putAttr_isSome, attrOf, TrackJamData.members])) ?_
  exact .cast (.set' (by simp [attrOf_putAttr_isSome, attrOf, TrackJamData.members]))
    (by simp [putAttr, TrackJamData.members, Tree.ints, Tree.objs, Tree.optInt, Tree.optObj, Tree.intOr])

theorem TrackJamData.makesNew : MakesNew TrackJamData.newHeap (.obj (TrackJamData.members TrackJamData.init)) :=
  .new (.cast (TrackJamData.inits []) (List.append_nil _))

theorem TrackJamData.refines : Refines TrackJamData.members TrackJamData.parseInto TrackJamData.parseHeap := by
  unfold TrackJamData.parseInto TrackJamData.parseHeap
  refine .bind (.call' EntityIdentifier.refines (fun o => by simp [TrackJamData.members, attrOf]) (fun o v => by simp [TrackJamData.members, putAttr, Tree.optInt, Tree.intOr])) fun _ => ?_
  refine .bind .read fun _ => ?_
  refine .bind (.set' (fun o => by simp [TrackJamData.members, attrOf]) (fun o => by simp [TrackJamData.members, putAttr, Tree.optInt, Tree.intOr])) fun _ => ?_
  refine .bind .read fun _ => ?_
  refine .bind (.set' (fun o => by simp [TrackJamData.members, attrOf]) (fun o => by simp [TrackJamData.members, putAttr, Tree.optInt, Tree.intOr])) fun _ => ?_
  exact .pure

theorem TrackJamData.shows : Shows TrackJamData.members TrackJamData.serialize TrackJamData.serializeHeap := by
  unfold TrackJamData.serialize TrackJamData.serializeHeap
  refine .bind (.call EntityIdentifier.shows (fun o => by simp [TrackJamData.members, attrOf])) ?_
  refine .bind (.putInt (fun o => by simp [TrackJamData.members, attrOf])) ?_
  exact .putInt (fun o => by simp [TrackJamData.members, attrOf])

theorem AggregateType.inits (ex : List (String × Tree)) : Inits (fun self => AggregateType.initHeap self)
      (([("aggregateKind", .sc .absent), ("domain", .sc .absent), ("country", .sc .absent), ("category", .sc .absent), ("subcategory", .sc .absent), ("specificInfo", .sc .absent), ("extra", .sc .absent)] : List (String × Tree)) ++ ex)
      (AggregateType.members {} ++ ex) := by
  unfold AggregateType.initHeap
  refine .bind (.set' (by simp [attrOf_putAttr_isSome, attrOf, AggregateType.members])) ?_
  refine .bind (.set' (by simp [attrOf_putAttr_isSome, attrOf, AggregateType.members])) ?_
  refine .bind (.set' (by simp [attrOf_putAttr_isSome, attrOf, AggregateType.members])) ?_
  refine .bind (.set' (by simp [attrOf_putAttr_isSome, attrOf, AggregateType.members])) ?_
  refine .bind (.set' (by simp [attrOf_putAttr_isSome, attrOf, AggregateType.members])) ?_
  refine .bind (.set' (by simp [attrOf_putAttr_isSome, attrOf, AggregateType.members])) ?_
  exact .cast (.set' (by simp [attrOf_putAttr_isSome, attrOf, AggregateType.members]))
    (by simp [putAttr, AggregateType.members, Tree.ints, Tree.objs, Tree.optInt, Tree.optObj, Tree.intOr])

theorem AggregateType.makesNew : MakesNew AggregateType.newHeap (.obj (AggregateType.members AggregateType.init)) :=
  .new (.cast (AggregateType.inits []) (List.append_nil _))

theorem AggregateType.refines : Refines AggregateType.members AggregateType.parseInto AggregateType.parseHeap := by
  unfold AggregateType.parseInto AggregateType.parseHeap
  refine .bind .read fun _ => ?_
  refine .bind (.set' (fun o => by simp [AggregateType.members, attrOf]) (fun o => by simp [AggregateType.members, putAttr, Tree.optInt, Tree.intOr])) fun _ => ?_
  refine .bind .read fun _ => ?_
  refine .bind (.set' (fun o => by simp [AggregateType.members, attrOf]) (fun o => by simp [AggregateType.members, putAttr, Tree.optInt, Tree.intOr])) fun _ => ?_
  refine .bind .read fun _ => ?_
  refine .bind (.set' (fun o => by simp [AggregateType.members, attrOf]) (fun o => by simp [AggregateType.members, putAttr, Tree.optInt, Tree.intOr])) fun _ => ?_
  refine .bind .read fun _ => ?_
  refine .bind (.set' (fun o => by simp [AggregateType.members, attrOf]) (fun o => by simp [AggregateType.members, putAttr, Tree.optInt, Tree.intOr])) fun _ => ?_
  refine .bind .read fun _ => ?_
  refine .bind (.set' (fun o => by simp [AggregateType.members, attrOf]) (fun o => by simp [AggregateType.members, putAttr, Tree.optInt, Tree.intOr])) fun _ => ?_
  refine .bind .read fun _ => ?_
  refine .bind (.set' (fun o => by simp [AggregateType.members, attrOf]) (fun o => by simp [AggregateType.members, putAttr, Tree.optInt, Tree.intOr])) fun _ => ?_
  refine .bind .read fun _ => ?_
  refine .bind (.set' (fun o => by simp [AggregateType.members, attrOf]) (fun o => by simp [AggregateType.members, putAttr, Tree.optInt, Tree.intOr])) fun _ => ?_
  exact .pure

theorem AggregateType.shows : Shows AggregateType.members AggregateType.serialize AggregateType.serializeHeap := by
  unfold AggregateType.serialize AggregateType.serializeHeap
  refine .bind (.putInt (fun o => by simp [AggregateType.members, attrOf])) ?_
  refine .bind (.putInt (fun o => by simp [AggregateType.members, attrOf])) ?_
  refine .bind (.putInt (fun o => by simp [AggregateType.members, attrOf])) ?_
  refine .bind (.putInt (fun o => by simp [AggregateType.members, attrOf])) ?_
  refine .bind (.putInt (fun o => by simp [AggregateType.members, attrOf])) ?_
  refine .bind (.putInt (fun o => by simp [AggregateType.members, attrOf])) ?_
  exact .putInt (fun o => by simp [AggregateType.members, attrOf])

theorem SimulationIdentifier.inits (ex : List (String × Tree)) : Inits (fun self => SimulationIdentifier.initHeap self)
      (([("simulationAddress", .sc .absent), ("referenceNumber", .sc .absent)] : List (String × Tree)) ++ ex)
      (SimulationIdentifier.members {} ++ ex) := by
  unfold SimulationIdentifier.initHeap
  refine .bind (.setOr' SimulationAddress.makesNew (by simp [attrOf_putAttr_isSome, attrOf, SimulationIdentifier.members])) ?_
  exact .cast (.set' (by simp [attrOf_putAttr_isSome, attrOf, SimulationIdentifier.members]))
    (by simp [putAttr, SimulationIdentifier.members, Tree.ints, Tree.objs, Tree.optInt, Tree.optObj, Tree.intOr])

theorem SimulationIdentifier.makesNew : MakesNew SimulationIdentifier.newHeap (.obj (SimulationIdentifier.members SimulationIdentifier.init)) :=
  .new (.cast (SimulationIdentifier.inits []) (List.append_nil _))

theorem SimulationIdentifier.refines : Refines SimulationIdentifier.members SimulationIdentifier.parseInto SimulationIdentifier.parseHeap := by
  unfold SimulationIdentifier.parseInto SimulationIdentifier.parseHeap
  refine .bind (.call' SimulationAddress.refines (fun o => by simp [SimulationIdentifier.members, attrOf]) (fun o v => by simp [SimulationIdentifier.members, putAttr, Tree.optInt, Tree.intOr])) fun _ => ?_
  refine .bind .read fun _ => ?_
  refine .bind (.set' (fun o => by simp [SimulationIdentifier.members, attrOf]) (fun o => by simp [SimulationIdentifier.members, putAttr, Tree.optInt, Tree.intOr])) fun _ => ?_
  exact .pure

theorem SimulationIdentifier.shows : Shows SimulationIdentifier.members SimulationIdentifier.serialize SimulationIdentifier.serializeHeap := by
  unfold SimulationIdentifier.serialize SimulationIdentifier.serializeHeap
  refine .bind (.call SimulationAddress.shows (fun o => by simp [SimulationIdentifier.members, attrOf])) ?_
  exact .putInt (fun o => by simp [SimulationIdentifier.members, attrOf])

theorem PduHeader.inits (ex : List (String × Tree)) : Inits (fun self => PduHeader.initHeap self)
      (([("protocolVersion", .sc .absent), ("exerciseID", .sc .absent), ("pduType", .sc .absent), ("protocolFamily", .sc .absent), ("timestamp", .sc .absent), ("pduLength", .sc .absent), ("pduStatus", .sc .absent), ("padding", .sc .absent)] : List (String × Tree)) ++ ex)
      (PduHeader.members {} ++ ex) := by
  unfold PduHeader.initHeap
  refine .bind (.set' (by simp [attrOf_putAttr_isSome, attrOf, PduHeader.members])) ?_
  refine .bind (.set' (by simp [attrOf_putAttr_isSome, attrOf, PduHeader.members])) ?_
  refine .bind (.set' (by simp [attrOf_putAttr_isSome, attrOf, PduHeader.members])) ?_
  refine .bind (.set' (by simp [attrOf_putAttr_isSome, attrOf, PduHeader.members])) ?_
  refine .bind (.set' (by simp [attrOf_putAttr_isSome, attrOf, PduHeader.members])) ?_
  refine .bind (.set' (by simp [attrOf_putAttr_isSome, attrOf, PduHeader.members])) ?_
  refine .bind (.set' (by simp [attrOf_putAttr_isSome, attrOf, PduHeader.members])) ?_
  exact .cast (.set' (by simp [attrOf_putAttr_isSome, attrOf, PduHeader.members]))
    (by simp [putAttr, PduHeader.members, Tree.ints, Tree.objs, Tree.optInt, Tree.optObj, Tree.intOr])

theorem PduHeader.makesNew : MakesNew PduHeader.newHeap (.obj (PduHeader.members PduHeader.init)) :=
  .new (.cast (PduHeader.inits []) (List.append_nil _))

theorem PduHeader.refines : Refines PduHeader.members PduHeader.parseInto PduHeader.parseHeap := by
  unfold PduHeader.parseInto PduHeader.parseHeap
  refine .bind .read fun _ => ?_
  refine .bind (.set' (fun o => by simp [PduHeader.members, attrOf]) (fun o => by simp [PduHeader.members, putAttr, Tree.optInt, Tree.intOr])) fun _ => ?_
  refine .bind .read fun _ => ?_
  refine .bind (.set' (fun o => by simp [PduHeader.members, attrOf]) (fun o => by simp [PduHeader.members, putAttr, Tree.optInt, Tree.intOr])) fun _ => ?_
  refine .bind .read fun _ => ?_
  refine .bind (.set' (fun o => by simp [PduHeader.members, attrOf]) (fun o => by simp [PduHeader.members, putAttr, Tree.optInt, Tree.intOr])) fun _ => ?_
  refine .bind .read fun _ => ?_
  refine .bind (.set' (fun o => by simp [PduHeader.members, attrOf]) (fun o => by simp [PduHeader.members, putAttr, Tree.optInt, Tree.intOr])) fun _ => ?_
  refine .bind .read fun _ => ?_
  refine .bind (.set' (fun o => by simp [PduHeader.members, attrOf]) (fun o => by simp [PduHeader.members, putAttr, Tree.optInt, Tree.intOr])) fun _ => ?_
  refine .bind .read fun _ => ?_
  refine .bind (.set' (fun o => by simp [PduHeader.members, attrOf]) (fun o => by simp [PduHeader.members, putAttr, Tree.optInt, Tree.intOr])) fun _ => ?_
  refine .bind .read fun _ => ?_
  refine .bind (.set' (fun o => by simp [PduHeader.members, attrOf]) (fun o => by simp [PduHeader.members, putAttr, Tree.optInt, Tree.intOr])) fun _ => ?_
  refine .bind .read fun _ => ?_
  refine .bind (.set' (fun o => by simp [PduHeader.members, attrOf]) (fun o => by simp [PduHeader.members, putAttr, Tree.optInt, Tree.intOr])) fun _ => ?_
  exact .pure

theorem PduHeader.shows : Shows PduHeader.members PduHeader.serialize PduHeader.serializeHeap := by
  unfold PduHeader.serialize PduHeader.serializeHeap
  refine .bind (.putInt (fun o => by simp [PduHeader.members, attrOf])) ?_
  refine .bind (.putInt (fun o => by simp [PduHeader.members, attrOf])) ?_
  refine .bind (.putInt (fun o => by simp [PduHeader.members, attrOf])) ?_
  refine .bind (.putInt (fun o => by simp [PduHeader.members, attrOf])) ?_
  refine .bind (.putInt (fun o => by simp [PduHeader.members, attrOf])) ?_
  refine .bind (.putInt (fun o => by simp [PduHeader.members, attrOf])) ?_
  refine .bind (.putInt (fun o => by simp [PduHeader.members, attrOf])) ?_
  exact .putInt (fun o => by simp [PduHeader.members, attrOf])

theorem SimulationManagementPduHeader.inits (ex : List (String × Tree)) : Inits (fun self => SimulationManagementPduHeader.initHeap self)
      (([("pduHeader", .sc .absent), ("originatingID", .sc .absent), ("receivingID", .sc .absent)] : List (String × Tree)) ++ ex)
      (SimulationManagementPduHeader.members {} ++ ex) := by
  unfold SimulationManagementPduHeader.initHeap
  refine .bind (.setOr' PduHeader.makesNew (by simp [attrOf_putAttr_isSome, attrOf, SimulationManagementPduHeader.members])) ?_
  refine .bind (.setOr' SimulationIdentifier.makesNew (by simp [attrOf_putAttr_isSome, attrOf, SimulationManagementPduHeader.members])) ?_
  exact .cast (.setOr' SimulationIdentifier.makesNew (by simp [attrOf_putAttr_isSome, attrOf, SimulationManagementPduHeader.members]))
    (by simp [putAttr, SimulationManagementPduHeader.members, Tree.ints, Tree.objs, Tree.optInt, Tree.optObj, Tree.intOr])

theorem SimulationManagementPduHeader.makesNew : MakesNew SimulationManagementPduHeader.newHeap (.obj (SimulationManagementPduHeader.members SimulationManagementPduHeader.init)) :=
  .new (.cast (SimulationManagementPduHeader.inits []) (List.append_nil _))

theorem SimulationManagementPduHeader.refines : Refines SimulationManagementPduHeader.members SimulationManagementPduHeader.parseInto SimulationManagementPduHeader.parseHeap := by
  unfold SimulationManagementPduHeader.parseInto SimulationManagementPduHeader.parseHeap
  refine .bind (.call' PduHeader.refines (fun o => by simp [SimulationManagementPduHeader.members, attrOf]) (fun o v => by simp [SimulationManagementPduHeader.members, putAttr, Tree.optInt, Tree.intOr])) fun _ => ?_
  refine .bind (.call' SimulationIdentifier.refines (fun o => by simp [SimulationManagementPduHeader.members, attrOf]) (fun o v => by simp [SimulationManagementPduHeader.members, putAttr, Tree.optInt, Tree.intOr])) fun _ => ?_
  refine .bind (.call' SimulationIdentifier.refines (fun o => by simp [SimulationManagementPduHeader.members, attrOf]) (fun o v => by simp [SimulationManagementPduHeader.members, putAttr, Tree.optInt, Tree.intOr])) fun _ => ?_
  exact .pure

theorem SimulationManagementPduHeader.shows : Shows SimulationManagementPduHeader.members SimulationManagementPduHeader.serialize SimulationManagementPduHeader.serializeHeap := by
  unfold SimulationManagementPduHeader.serialize SimulationManagementPduHeader.serializeHeap
  refine .bind (.call PduHeader.shows (fun o => by simp [SimulationManagementPduHeader.members, attrOf])) ?_
  refine .bind (.call SimulationIdentifier.shows (fun o => by simp [SimulationManagementPduHeader.members, attrOf])) ?_
  exact .call SimulationIdentifier.shows (fun o => by simp [SimulationManagementPduHeader.members, attrOf])

theorem BeamData.inits (ex : List (String × Tree)) : Inits (fun self => BeamData.initHeap self)
      (([("beamAzimuthCenter", .sc .absent), ("beamAzimuthSweep", .sc .absent), ("beamElevationCenter", .sc .absent), ("beamElevationSweep", .sc .absent), ("beamSweepSync", .sc .absent)] : List (String × Tree)) ++ ex)
      (BeamData.members {} ++ ex) := by
  unfold BeamData.initHeap
  refine .bind (.set' (by simp [attrOf_putAttr_isSome, attrOf, BeamData.members])) ?_
  refine .bind (.set' (by simp [attrOf_putAttr_isSome, attrOf, BeamData.members])) ?_
  refine .bind (.set' (by simp [attrOf_putAttr_isSome, attrOf, BeamData.members])) ?_
  refine .bind (.set' (by simp [attrOf_putAttr_isSome, attrOf, BeamData.members])) ?_
  exact .cast (.set' (by simp [attrOf_putAttr_isSome, attrOf, BeamData.members]))
    (by simp [putAttr, BeamData.members, Tree.ints, Tree.objs, Tree.optInt, Tree.optObj, Tree.intOr])

theorem BeamData.makesNew : MakesNew BeamData.newHeap (.obj (BeamData.members BeamData.init)) :=
  .new (.cast (BeamData.inits []) (List.append_nil _))

theorem BeamData.refines : Refines BeamData.members BeamData.parseInto BeamData.parseHeap := by
  unfold BeamData.parseInto BeamData.parseHeap
  refine .bind .read fun _ => ?_
  refine .bind (.set' (fun o => by simp [BeamData.members, attrOf]) (fun o => by simp [BeamData.members, putAttr, Tree.optInt, Tree.intOr])) fun _ => ?_
  refine .bind .read fun _ => ?_
  refine .bind (.set' (fun o => by simp [BeamData.members, attrOf]) (fun o => by simp [BeamData.members, putAttr, Tree.optInt, Tree.intOr])) fun _ => ?_
  refine .bind .read fun _ => ?_
  refine .bind (.set' (fun o => by simp [BeamData.members, attrOf]) (fun o => by simp [BeamData.members, putAttr, Tree.optInt, Tree.intOr])) fun _ => ?_
  refine .bind .read fun _ => ?_
  refine .bind (.set' (fun o => by simp [BeamData.members, attrOf]) (fun o => by simp [BeamData.members, putAttr, Tree.optInt, Tree.intOr])) fun _ => ?_
  refine .bind .read fun _ => ?_
  refine .bind (.set' (fun o => by simp [BeamData.members, attrOf]) (fun o => by simp [BeamData.members, putAttr, Tree.optInt, Tree.intOr])) fun _ => ?_
  exact .pure

theorem BeamData.shows : Shows BeamData.members BeamData.serialize BeamData.serializeHeap := by
  unfold BeamData.serialize BeamData.serializeHeap
  refine .bind (.putFloat (fun o => by simp [BeamData.members, attrOf])) ?_
  refine .bind (.putFloat (fun o => by simp [BeamData.members, attrOf])) ?_
  refine .bind (.putFloat (fun o => by simp [BeamData.members, attrOf])) ?_
  refine .bind (.putFloat (fun o => by simp [BeamData.members, attrOf])) ?_
  exact .putFloat (fun o => by simp [BeamData.members, attrOf])

theorem EngineFuel.inits (ex : List (String × Tree)) : Inits (fun self => EngineFuel.initHeap self)
      (([("fuelQuantity", .sc .absent), ("fuelMeasurementUnits", .sc .absent), ("fuelType", .sc .absent), ("fuelLocation", .sc .absent), ("padding", .sc .absent)] : List (String × Tree)) ++ ex)
      (EngineFuel.members {} ++ ex) := by
  unfold EngineFuel.initHeap
  refine .bind (.set' (by simp [attrOf_putAttr_isSome, attrOf, EngineFuel.members])) ?_
  refine .bind (.set' (by simp [attrOf_putAttr_isSome, attrOf, EngineFuel.members])) ?_
  refine .bind (.set' (by simp [attrOf_putAttr_isSome, attrOf, EngineFuel.members])) ?_
  refine .bind (.set' (by simp [attrOf_putAttr_isSome, attrOf, EngineFuel.members])) ?_
  exact .cast (.set' (by simp [attrOf_putAttr_isSome, attrOf, EngineFuel.members]))
    (by simp [putAttr, EngineFuel.members, Tree.ints, Tree.objs, Tree.optInt, Tree.optObj, Tree.intOr])

theorem EngineFuel.makesNew : MakesNew EngineFuel.newHeap (.obj (EngineFuel.members EngineFuel.init)) :=
  .new (.cast (EngineFuel.inits []) (List.append_nil _))

theorem EngineFuel.refines : Refines EngineFuel.members EngineFuel.parseInto EngineFuel.parseHeap := by
  unfold EngineFuel.parseInto EngineFuel.parseHeap
  refine .bind .read fun _ => ?_
  refine .bind (.set' (fun o => by simp [EngineFuel.members, attrOf]) (fun o => by simp [EngineFuel.members, putAttr, Tree.optInt, Tree.intOr])) fun _ => ?_
  refine .bind .read fun _ => ?_
  refine .bind (.set' (fun o => by simp [EngineFuel.members, attrOf]) (fun o => by simp [EngineFuel.members, putAttr, Tree.optInt, Tree.intOr])) fun _ => ?_
  refine .bind .read fun _ => ?_
  refine .bind (.set' (fun o => by simp [EngineFuel.members, attrOf]) (fun o => by simp [EngineFuel.members, putAttr, Tree.optInt, Tree.intOr])) fun _ => ?_
  refine .bind .read fun _ => ?_
  refine .bind (.set' (fun o => by simp [EngineFuel.members, attrOf]) (fun o => by simp [EngineFuel.members, putAttr, Tree.optInt, Tree.intOr])) fun _ => ?_
  refine .bind .read fun _ => ?_
  refine .bind (.set' (fun o => by simp [EngineFuel.members, attrOf]) (fun o => by simp [EngineFuel.members, putAttr, Tree.optInt, Tree.intOr])) fun _ => ?_
  exact .pure

theorem EngineFuel.shows : Shows EngineFuel.members EngineFuel.serialize EngineFuel.serializeHeap := by
  unfold EngineFuel.serialize EngineFuel.serializeHeap
  refine .bind (.putInt (fun o => by simp [EngineFuel.members, attrOf])) ?_
  refine .bind (.putInt (fun o => by simp [EngineFuel.members, attrOf])) ?_
  refine .bind (.putInt (fun o => by simp [EngineFuel.members, attrOf])) ?_
  refine .bind (.putInt (fun o => by simp [EngineFuel.members, attrOf])) ?_
  exact .putInt (fun o => by simp [EngineFuel.members, attrOf])

theorem IOEffect.inits (ex : List (String × Tree)) : Inits (fun self => IOEffect.initHeap self)
      (([("recordType", .sc (.int 5500)), ("recordLength", .sc (.int 16)), ("ioStatus", .sc .absent), ("ioLinkType", .sc .absent), ("ioEffect", .sc .absent), ("ioEffectDutyCycle", .sc .absent), ("ioEffectDuration", .sc .absent), ("ioProcess", .sc .absent), ("padding", .sc .absent)] : List (String × Tree)) ++ ex)
      (IOEffect.members {} ++ ex) := by
  unfold IOEffect.initHeap
  refine .bind (.set' (by simp [attrOf_putAttr_isSome, attrOf, IOEffect.members])) ?_
  refine .bind (.set' (by simp [attrOf_putAttr_isSome, attrOf, IOEffect.members])) ?_
  refine .bind (.set' (by simp [attrOf_putAttr_isSome, attrOf, IOEffect.members])) ?_
  refine .bind (.set' (by simp [attrOf_putAttr_isSome, attrOf, IOEffect.members])) ?_
  refine .bind (.set' (by simp [attrOf_putAttr_isSome, attrOf, IOEffect.members])) ?_
  refine .bind (.set' (by simp [attrOf_putAttr_isSome, attrOf, IOEffect.members])) ?_
  exact .cast (.set' (by simp [attrOf_putAttr_isSome, attrOf, IOEffect.members]))
    (by simp [putAttr, IOEffect.members, Tree.ints, Tree.objs, Tree.optInt, Tree.optObj, Tree.intOr])

theorem IOEffect.makesNew : MakesNew IOEffect.newHeap (.obj (IOEffect.members IOEffect.init)) :=
  .new (.cast (IOEffect.inits []) (List.append_nil _))

theorem IOEffect.refines : Refines IOEffect.members IOEffect.parseInto IOEffect.parseHeap := by
  unfold IOEffect.parseInto IOEffect.parseHeap
  refine .bind .read fun _ => ?_
  refine .bind (.set' (fun o => by simp [IOEffect.members, attrOf]) (fun o => by simp [IOEffect.members, putAttr, Tree.optInt, Tree.intOr])) fun _ => ?_
  refine .bind .read fun _ => ?_
  refine .bind (.set' (fun o => by simp [IOEffect.members, attrOf]) (fun o => by simp [IOEffect.members, putAttr, Tree.optInt, Tree.intOr])) fun _ => ?_
  refine .bind .read fun _ => ?_
  refine .bind (.set' (fun o => by simp [IOEffect.members, attrOf]) (fun o => by simp [IOEffect.members, putAttr, Tree.optInt, Tree.intOr])) fun _ => ?_
  refine .bind .read fun _ => ?_
  refine .bind (.set' (fun o => by simp [IOEffect.members, attrOf]) (fun o => by simp [IOEffect.members, putAttr, Tree.optInt, Tree.intOr])) fun _ => ?_
  refine .bind .read fun _ => ?_
  refine .bind (.set' (fun o => by simp [IOEffect.members, attrOf]) (fun o => by simp [IOEffect.members, putAttr, Tree.optInt, Tree.intOr])) fun _ => ?_
  refine .bind .read fun _ => ?_
  refine .bind (.set' (fun o => by simp [IOEffect.members, attrOf]) (fun o => by simp [IOEffect.members, putAttr, Tree.optInt, Tree.intOr])) fun _ => ?_
  refine .bind .read fun _ => ?_
  refine .bind (.set' (fun o => by simp [IOEffect.members, attrOf]) (fun o => by simp [IOEffect.members, putAttr, Tree.optInt, Tree.intOr])) fun _ => ?_
  refine .bind .read fun _ => ?_
  refine .bind (.set' (fun o => by simp [IOEffect.members, attrOf]) (fun o => by simp [IOEffect.members, putAttr, Tree.optInt, Tree.intOr])) fun _ => ?_
  refine .bind .read fun _ => ?_
  refine .bind (.set' (fun o => by simp [IOEffect.members, attrOf]) (fun o => by simp [IOEffect.members, putAttr, Tree.optInt, Tree.intOr])) fun _ => ?_
  exact .pure

theorem IOEffect.shows : Shows IOEffect.members IOEffect.serialize IOEffect.serializeHeap := by
  unfold IOEffect.serialize IOEffect.serializeHeap
  refine .bind (.putInt (fun o => by simp [IOEffect.members, attrOf])) ?_
  refine .bind (.putInt (fun o => by simp [IOEffect.members, attrOf])) ?_
  refine .bind (.putInt (fun o => by simp [IOEffect.members, attrOf])) ?_
  refine .bind (.putInt (fun o => by simp [IOEffect.members, attrOf])) ?_
  refine .bind (.putInt (fun o => by simp [IOEffect.members, attrOf])) ?_
  refine .bind (.putInt (fun o => by simp [IOEffect.members, attrOf])) ?_
  refine .bind (.putInt (fun o => by simp [IOEffect.members, attrOf])) ?_
  refine .bind (.putInt (fun o => by simp [IOEffect.members, attrOf])) ?_
  exact .putInt (fun o => by simp [IOEffect.members, attrOf])

theorem GridAxisDescriptorVariable.inits (ex : List (String × Tree)) : Inits (fun self => GridAxisDescriptorVariable.initHeap self)
      (([("domainInitialXi", .sc .absent), ("domainFinalXi", .sc .absent), ("domainPointsXi", .sc .absent), ("interleafFactor", .sc .absent), ("axisType", .sc .absent), ("numberOfPointsOnXiAxis", .sc .absent), ("initialIndex", .sc .absent), ("coordinateScaleXi", .sc .absent), ("coordinateOffsetXi", .sc .absent), ("xiValues", .sc .absent)] : List (String × Tree)) ++ ex)
      (GridAxisDescriptorVariable.members {} ++ ex) := by
  unfold GridAxisDescriptorVariable.initHeap
  refine .bind (.set' (by simp [attrOf_putAttr_isSome, attrOf, GridAxisDescriptorVariable.members])) ?_
  refine .bind (.set' (by simp [attrOf_putAttr_isSome, attrOf, GridAxisDescriptorVariable.members])) ?_
  refine .bind (.set' (by simp [attrOf_putAttr_isSome, attrOf, GridAxisDescriptorVariable.members])) ?_
  refine .bind (.set' (by simp [attrOf_putAttr_isSome, attrOf, GridAxisDescriptorVariable.members])) ?_
  refine .bind (.set' (by simp [attrOf_putAttr_isSome, attrOf, GridAxisDescriptorVariable.members])) ?_
  refine .bind (.set' (by simp [attrOf_putAttr_isSome, attrOf, GridAxisDescriptorVariable.members])) ?_
  refine .bind (.set' (by simp [attrOf_putAttr_isSome, attrOf, GridAxisDescriptorVariable.members])) ?_
  refine .bind (.set' (by simp [attrOf_putAttr_isSome, attrOf, GridAxisDescriptorVariable.members])) ?_
  refine .bind (.set' (by simp [attrOf_putAttr_isSome, attrOf, GridAxisDescriptorVariable.members])) ?_
  exact .cast (.setOr' .empty (by simp [attrOf_putAttr_isSome, attrOf, GridAxisDescriptorVariable.members]))
    (by simp [putAttr, GridAxisDescriptorVariable.members, Tree.ints, Tree.objs, Tree.optInt, Tree.optObj, Tree.intOr])

theorem GridAxisDescriptorVariable.makesNew : MakesNew GridAxisDescriptorVariable.newHeap (.obj (GridAxisDescriptorVariable.members GridAxisDescriptorVariable.init)) :=
  .new (.cast (GridAxisDescriptorVariable.inits []) (List.append_nil _))

theorem GridAxisDescriptorVariable.refines : Refines GridAxisDescriptorVariable.members GridAxisDescriptorVariable.parseInto GridAxisDescriptorVariable.parseHeap := by
  unfold GridAxisDescriptorVariable.parseInto GridAxisDescriptorVariable.parseHeap
  refine .bind .read fun _ => ?_
  refine .bind (.set' (fun o => by simp [GridAxisDescriptorVariable.members, attrOf]) (fun o => by simp [GridAxisDescriptorVariable.members, putAttr, Tree.optInt, Tree.intOr])) fun _ => ?_
  refine .bind .read fun _ => ?_
  refine .bind (.set' (fun o => by simp [GridAxisDescriptorVariable.members, attrOf]) (fun o => by simp [GridAxisDescriptorVariable.members, putAttr, Tree.optInt, Tree.intOr])) fun _ => ?_
  refine .bind .read fun _ => ?_
  refine .bind (.set' (fun o => by simp [GridAxisDescriptorVariable.members, attrOf]) (fun o => by simp [GridAxisDescriptorVariable.members, putAttr, Tree.optInt, Tree.intOr])) fun _ => ?_
  refine .bind .read fun _ => ?_
  refine .bind (.set' (fun o => by simp [GridAxisDescriptorVariable.members, attrOf]) (fun o => by simp [GridAxisDescriptorVariable.members, putAttr, Tree.optInt, Tree.intOr])) fun _ => ?_
  refine .bind .read fun _ => ?_
  refine .bind (.set' (fun o => by simp [GridAxisDescriptorVariable.members, attrOf]) (fun o => by simp [GridAxisDescriptorVariable.members, putAttr, Tree.optInt, Tree.intOr])) fun _ => ?_
  refine .bind .read fun _ => ?_
  refine .bind (.set' (fun o => by simp [GridAxisDescriptorVariable.members, attrOf]) (fun o => by simp [GridAxisDescriptorVariable.members, putAttr, Tree.optInt, Tree.intOr])) fun _ => ?_
  refine .bind .read fun _ => ?_
  refine .bind (.set' (fun o => by simp [GridAxisDescriptorVariable.members, attrOf]) (fun o => by simp [GridAxisDescriptorVariable.members, putAttr, Tree.optInt, Tree.intOr])) fun _ => ?_
  refine .bind .read fun _ => ?_
  refine .bind (.set' (fun o => by simp [GridAxisDescriptorVariable.members, attrOf]) (fun o => by simp [GridAxisDescriptorVariable.members, putAttr, Tree.optInt, Tree.intOr])) fun _ => ?_
  refine .bind .read fun _ => ?_
  refine .bind (.set' (fun o => by simp [GridAxisDescriptorVariable.members, attrOf]) (fun o => by simp [GridAxisDescriptorVariable.members, putAttr, Tree.optInt, Tree.intOr])) fun _ => ?_
  refine .bind .raises fun _ => ?_
  exact .pure

theorem GridAxisDescriptorVariable.shows : Shows GridAxisDescriptorVariable.members GridAxisDescriptorVariable.serialize GridAxisDescriptorVariable.serializeHeap := by
  unfold GridAxisDescriptorVariable.serialize GridAxisDescriptorVariable.serializeHeap
  refine .bind (.putFloat (fun o => by simp [GridAxisDescriptorVariable.members, attrOf])) ?_
  refine .bind (.putFloat (fun o => by simp [GridAxisDescriptorVariable.members, attrOf])) ?_
  refine .bind (.putInt (fun o => by simp [GridAxisDescriptorVariable.members, attrOf])) ?_
  refine .bind (.putInt (fun o => by simp [GridAxisDescriptorVariable.members, attrOf])) ?_
  refine .bind (.putInt (fun o => by simp [GridAxisDescriptorVariable.members, attrOf])) ?_
  refine .bind (.lenInts (fun o => by simp [GridAxisDescriptorVariable.members, attrOf])) ?_
  refine .bind (.putInt (fun o => by simp [GridAxisDescriptorVariable.members, attrOf])) ?_
  refine .bind (.putFloat (fun o => by simp [GridAxisDescriptorVariable.members, attrOf])) ?_
  refine .bind (.putFloat (fun o => by simp [GridAxisDescriptorVariable.members, attrOf])) ?_
  exact .eachRaises (fun o => by simp [GridAxisDescriptorVariable.members, attrOf])

theorem SupplyQuantity.inits (ex : List (String × Tree)) : Inits (fun self => SupplyQuantity.initHeap self)
      (([("supplyType", .sc .absent), ("quantity", .sc .absent)] : List (String × Tree)) ++ ex)
      (SupplyQuantity.members {} ++ ex) := by
  unfold SupplyQuantity.initHeap
  refine .bind (.setOr' EntityType.makesNew (by simp [attrOf_putAttr_isSome, attrOf, SupplyQuantity.members])) ?_
  exact .cast (.set' (by simp [attrOf_putAttr_isSome, attrOf, SupplyQuantity.members]))
    (by simp [putAttr, SupplyQuantity.members, Tree.ints, Tree.objs, Tree.optInt, Tree.optObj, Tree.intOr])

theorem SupplyQuantity.makesNew : MakesNew SupplyQuantity.newHeap (.obj (SupplyQuantity.members SupplyQuantity.init)) :=
  .new (.cast (SupplyQuantity.inits []) (List.append_nil _))

theorem SupplyQuantity.refines : Refines SupplyQuantity.members SupplyQuantity.parseInto SupplyQuantity.parseHeap := by
  unfold SupplyQuantity.parseInto SupplyQuantity.parseHeap
  refine .bind (.call' EntityType.refines (fun o => by simp [SupplyQuantity.members, attrOf]) (fun o v => by simp [SupplyQuantity.members, putAttr, Tree.optInt, Tree.intOr])) fun _ => ?_
  refine .bind .read fun _ => ?_
  refine .bind (.set' (fun o => by simp [SupplyQuantity.members, attrOf]) (fun o => by simp [SupplyQuantity.members, putAttr, Tree.optInt, Tree.intOr])) fun _ => ?_
  exact .pure

theorem SupplyQuantity.shows : Shows SupplyQuantity.members SupplyQuantity.serialize SupplyQuantity.serializeHeap := by
  unfold SupplyQuantity.serialize SupplyQuantity.serializeHeap
  refine .bind (.call EntityType.shows (fun o => by simp [SupplyQuantity.members, attrOf])) ?_
  exact .putFloat (fun o => by simp [SupplyQuantity.members, attrOf])

theorem SilentEntitySystem.inits (ex : List (String × Tree)) : Inits (fun self => SilentEntitySystem.initHeap self)
      (([("numberOfEntities", .sc .absent), ("entityType", .sc .absent), ("appearanceRecordList", .sc .absent)] : List (String × Tree)) ++ ex)
      (SilentEntitySystem.members {} ++ ex) := by
  unfold SilentEntitySystem.initHeap
  refine .bind (.set' (by simp [attrOf_putAttr_isSome, attrOf, SilentEntitySystem.members])) ?_
  refine .bind (.setOr' EntityType.makesNew (by simp [attrOf_putAttr_isSome, attrOf, SilentEntitySystem.members])) ?_
  exact .cast (.setOr' .empty (by simp [attrOf_putAttr_isSome, attrOf, SilentEntitySystem.members]))
    (by simp [putAttr, SilentEntitySystem.members, Tree.ints, Tree.objs, Tree.optInt, Tree.optObj, Tree.intOr])

theorem SilentEntitySystem.makesNew : MakesNew SilentEntitySystem.newHeap (.obj (SilentEntitySystem.members SilentEntitySystem.init)) :=
  .new (.cast (SilentEntitySystem.inits []) (List.append_nil _))

theorem SilentEntitySystem.refines : Refines SilentEntitySystem.members SilentEntitySystem.parseInto SilentEntitySystem.parseHeap := by
  unfold SilentEntitySystem.parseInto SilentEntitySystem.parseHeap
  refine .bind .read fun _ => ?_
  refine .bind (.set' (fun o => by simp [SilentEntitySystem.members, attrOf]) (fun o => by simp [SilentEntitySystem.members, putAttr, Tree.optInt, Tree.intOr])) fun _ => ?_
  refine .bind .read fun _ => ?_
  refine .bind (.call' EntityType.refines (fun o => by simp [SilentEntitySystem.members, attrOf]) (fun o v => by simp [SilentEntitySystem.members, putAttr, Tree.optInt, Tree.intOr])) fun _ => ?_
  refine .bind .raises fun _ => ?_
  exact .pure

theorem SilentEntitySystem.shows : Shows SilentEntitySystem.members SilentEntitySystem.serialize SilentEntitySystem.serializeHeap := by
  unfold SilentEntitySystem.serialize SilentEntitySystem.serializeHeap
  refine .bind (.putInt (fun o => by simp [SilentEntitySystem.members, attrOf])) ?_
  refine .bind (.lenInts (fun o => by simp [SilentEntitySystem.members, attrOf])) ?_
  refine .bind (.call EntityType.shows (fun o => by simp [SilentEntitySystem.members, attrOf])) ?_
  exact .eachRaises (fun o => by simp [SilentEntitySystem.members, attrOf])

theorem SilentAggregateSystem.inits (ex : List (String × Tree)) : Inits (fun self => SilentAggregateSystem.initHeap self)
      (([("numberOfAggregates", .sc .absent), ("aggregateType", .sc .absent), ("entityType", .sc .absent)] : List (String × Tree)) ++ ex)
      (SilentAggregateSystem.members {} ++ ex) := by
  unfold SilentAggregateSystem.initHeap
  refine .bind (.set' (by simp [attrOf_putAttr_isSome, attrOf, SilentAggregateSystem.members])) ?_
  exact .cast (.setOr' AggregateType.makesNew (by simp [attrOf_putAttr_isSome, attrOf, SilentAggregateSystem.members]))
    (by simp [putAttr, SilentAggregateSystem.members, Tree.ints, Tree.objs, Tree.optInt, Tree.optObj, Tree.intOr])

theorem SilentAggregateSystem.makesNew : MakesNew SilentAggregateSystem.newHeap (.obj (SilentAggregateSystem.members SilentAggregateSystem.init)) :=
  .new (.cast (SilentAggregateSystem.inits []) (List.append_nil _))

theorem SilentAggregateSystem.refines : Refines SilentAggregateSystem.members SilentAggregateSystem.parseInto SilentAggregateSystem.parseHeap := by
  unfold SilentAggregateSystem.parseInto SilentAggregateSystem.parseHeap
  refine .bind .read fun _ => ?_
  refine .bind (.set' (fun o => by simp [SilentAggregateSystem.members, attrOf]) (fun o => by simp [SilentAggregateSystem.members, putAttr, Tree.optInt, Tree.intOr])) fun _ => ?_
  refine .bind (.call' AggregateType.refines (fun o => by simp [SilentAggregateSystem.members, attrOf]) (fun o v => by simp [SilentAggregateSystem.members, putAttr, Tree.optInt, Tree.intOr])) fun _ => ?_
  exact .pure

theorem SilentAggregateSystem.shows : Shows SilentAggregateSystem.members SilentAggregateSystem.serialize SilentAggregateSystem.serializeHeap := by
  unfold SilentAggregateSystem.serialize SilentAggregateSystem.serializeHeap
  refine .bind (.putInt (fun o => by simp [SilentAggregateSystem.members, attrOf])) ?_
  exact .optObj AggregateType.shows (fun o => by simp [SilentAggregateSystem.members, attrOf])

theorem BlankingSector.inits (ex : List (String × Tree)) : Inits (fun self => BlankingSector.initHeap self)
      (([("recordType", .sc (.int 3500)), ("recordLength", .sc (.int 40)), ("padding", .sc .absent), ("emitterNumber", .sc .absent), ("beamNumber", .sc .absent), ("stateIndicator", .sc .absent), ("padding2", .sc .absent), ("leftAzimuth", .sc .absent), ("rightAzimuth", .sc .absent), ("lowerElevation", .sc .absent), ("upperElevation", .sc .absent), ("residualPower", .sc .absent), ("padding3", .sc .absent), ("padding4", .sc .absent)] : List (String × Tree)) ++ ex)
      (BlankingSector.members {} ++ ex) := by
  unfold BlankingSector.initHeap
  refine .bind (.set' (by simp [attrOf_putAttr_isSome, attrOf, BlankingSector.members])) ?_
  refine .bind (.set' (by simp [attrOf_putAttr_isSome, attrOf, BlankingSector.members])) ?_
  refine .bind (.set' (by simp [attrOf_putAttr_isSome, attrOf, BlankingSector.members])) ?_
  refine .bind (.set' (by simp [attrOf_putAttr_isSome, attrOf, BlankingSector.members])) ?_
  refine .bind (.set' (by simp [attrOf_putAttr_isSome, attrOf, BlankingSector.members])) ?_
  refine .bind (.set' (by simp [attrOf_putAttr_isSome, attrOf, BlankingSector.members])) ?_
  refine .bind (.set' (by simp [attrOf_putAttr_isSome, attrOf, BlankingSector.members])) ?_
  refine .bind (.set' (by simp [attrOf_putAttr_isSome, attrOf, BlankingSector.members])) ?_
  refine .bind (.set' (by simp [attrOf_putAttr_isSome, attrOf, BlankingSector.members])) ?_
  refine .bind (.set' (by simp [attrOf_putAttr_isSome, attrOf, BlankingSector.members])) ?_
  refine .bind (.set' (by simp [attrOf_putAttr_isSome, attrOf, BlankingSector.members])) ?_
  exact .cast (.set' (by simp [attrOf_putAttr_isSome, attrOf, BlankingSector.members]))
    (by simp [putAttr, BlankingSector.members, Tree.ints, Tree.objs, Tree.optInt, Tree.optObj, Tree.intOr])

theorem BlankingSector.makesNew : MakesNew BlankingSector.newHeap (.obj (BlankingSector.members BlankingSector.init)) :=
  .new (.cast (BlankingSector.inits []) (List.append_nil _))

theorem BlankingSector.refines : Refines BlankingSector.members BlankingSector.parseInto BlankingSector.parseHeap := by
  unfold BlankingSector.parseInto BlankingSector.parseHeap
  refine .bind .read fun _ => ?_
  refine .bind (.set' (fun o => by simp [BlankingSector.members, attrOf]) (fun o => by simp [BlankingSector.members, putAttr, Tree.optInt, Tree.intOr])) fun _ => ?_
  refine .bind .read fun _ => ?_
  refine .bind (.set' (fun o => by simp [BlankingSector.members, attrOf]) (fun o => by simp [BlankingSector.members, putAttr, Tree.optInt, Tree.intOr])) fun _ => ?_
  refine .bind .read fun _ => ?_
  refine .bind (.set' (fun o => by simp [BlankingSector.members, attrOf]) (fun o => by simp [BlankingSector.members, putAttr, Tree.optInt, Tree.intOr])) fun _ => ?_
  refine .bind .read fun _ => ?_
  refine .bind (.set' (fun o => by simp [BlankingSector.members, attrOf]) (fun o => by simp [BlankingSector.members, putAttr, Tree.optInt, Tree.intOr])) fun _ => ?_
  refine .bind .read fun _ => ?_
  refine .bind (.set' (fun o => by simp [BlankingSector.members, attrOf]) (fun o => by simp [BlankingSector.members, putAttr, Tree.optInt, Tree.intOr])) fun _ => ?_
  refine .bind .read fun _ => ?_
  refine .bind (.set' (fun o => by simp [BlankingSector.members, attrOf]) (fun o => by simp [BlankingSector.members, putAttr, Tree.optInt, Tree.intOr])) fun _ => ?_
  refine .bind .read fun _ => ?_
  refine .bind (.set' (fun o => by simp [BlankingSector.members, attrOf]) (fun o => by simp [BlankingSector.members, putAttr, Tree.optInt, Tree.intOr])) fun _ => ?_
  refine .bind .read fun _ => ?_
  refine .bind (.set' (fun o => by simp [BlankingSector.members, attrOf]) (fun o => by simp [BlankingSector.members, putAttr, Tree.optInt, Tree.intOr])) fun _ => ?_
  refine .bind .read fun _ => ?_
  refine .bind (.set' (fun o => by simp [BlankingSector.members, attrOf]) (fun o => by simp [BlankingSector.members, putAttr, Tree.optInt, Tree.intOr])) fun _ => ?_
  refine .bind .read fun _ => ?_
  refine .bind (.set' (fun o => by simp [BlankingSector.members, attrOf]) (fun o => by simp [BlankingSector.members, putAttr, Tree.optInt, Tree.intOr])) fun _ => ?_
  refine .bind .read fun _ => ?_
  refine .bind (.set' (fun o => by simp [BlankingSector.members, attrOf]) (fun o => by simp [BlankingSector.members, putAttr, Tree.optInt, Tree.intOr])) fun _ => ?_
  refine .bind .read fun _ => ?_
  refine .bind (.set' (fun o => by simp [BlankingSector.members, attrOf]) (fun o => by simp [BlankingSector.members, putAttr, Tree.optInt, Tree.intOr])) fun _ => ?_
  refine .bind .read fun _ => ?_
  refine .bind (.set' (fun o => by simp [BlankingSector.members, attrOf]) (fun o => by simp [BlankingSector.members, putAttr, Tree.optInt, Tree.intOr])) fun _ => ?_
  refine .bind .read fun _ => ?_
  refine .bind (.set' (fun o => by simp [BlankingSector.members, attrOf]) (fun o => by simp [BlankingSector.members, putAttr, Tree.optInt, Tree.intOr])) fun _ => ?_
  exact .pure

theorem BlankingSector.shows : Shows BlankingSector.members BlankingSector.serialize BlankingSector.serializeHeap := by
  unfold BlankingSector.serialize BlankingSector.serializeHeap
  refine .bind (.putInt (fun o => by simp [BlankingSector.members, attrOf])) ?_
  refine .bind (.putInt (fun o => by simp [BlankingSector.members, attrOf])) ?_
  refine .bind (.putInt (fun o => by simp [BlankingSector.members, attrOf])) ?_
  refine .bind (.putInt (fun o => by simp [BlankingSector.members, attrOf])) ?_
  refine .bind (.putInt (fun o => by simp [BlankingSector.members, attrOf])) ?_
  refine .bind (.putInt (fun o => by simp [BlankingSector.members, attrOf])) ?_
  refine .bind (.putInt (fun o => by simp [BlankingSector.members, attrOf])) ?_
  refine .bind (.putFloat (fun o => by simp [BlankingSector.members, attrOf])) ?_
  refine .bind (.putFloat (fun o => by simp [BlankingSector.members, attrOf])) ?_
  refine .bind (.putFloat (fun o => by simp [BlankingSector.members, attrOf])) ?_
  refine .bind (.putFloat (fun o => by simp [BlankingSector.members, attrOf])) ?_
  refine .bind (.putFloat (fun o => by simp [BlankingSector.members, attrOf])) ?_
  refine .bind (.putInt (fun o => by simp [BlankingSector.members, attrOf])) ?_
  exact .putInt (fun o => by simp [BlankingSector.members, attrOf])

theorem LaunchedMunitionRecord.inits (ex : List (String × Tree)) : Inits (fun self => LaunchedMunitionRecord.initHeap self)
      (([("fireEventID", .sc .absent), ("padding", .sc .absent), ("firingEntityID", .sc .absent), ("padding2", .sc .absent), ("targetEntityID", .sc .absent), ("padding3", .sc .absent), ("targetLocation", .sc .absent)] : List (String × Tree)) ++ ex)
      (LaunchedMunitionRecord.members {} ++ ex) := by
  unfold LaunchedMunitionRecord.initHeap
  refine .bind (.setOr' EventIdentifier.makesNew (by simp [attrOf_putAttr_isSome, attrOf, LaunchedMunitionRecord.members])) ?_
  refine .bind (.set' (by simp [attrOf_putAttr_isSome, attrOf, LaunchedMunitionRecord.members])) ?_
  refine .bind (.setOr' EventIdentifier.makesNew (by simp [attrOf_putAttr_isSome, attrOf, LaunchedMunitionRecord.members])) ?_
  refine .bind (.set' (by simp [attrOf_putAttr_isSome, attrOf, LaunchedMunitionRecord.members])) ?_
  refine .bind (.setOr' EventIdentifier.makesNew (by simp [attrOf_putAttr_isSome, attrOf, LaunchedMunitionRecord.members])) ?_
  refine .bind (.set' (by simp [attrOf_putAttr_isSome, attrOf, LaunchedMunitionRecord.members])) ?_
  exact .cast (.setOr' WorldCoordinates.makesNew (by simp [attrOf_putAttr_isSome, attrOf, LaunchedMunitionRecord.members]))
    (by simp [putAttr, LaunchedMunitionRecord.members, Tree.ints, Tree.objs, Tree.optInt, Tree.optObj, Tree.intOr])

theorem LaunchedMunitionRecord.makesNew : MakesNew LaunchedMunitionRecord.newHeap (.obj (LaunchedMunitionRecord.members LaunchedMunitionRecord.init)) :=
  .new (.cast (LaunchedMunitionRecord.inits []) (List.append_nil _))

theorem LaunchedMunitionRecord.refines : Refines LaunchedMunitionRecord.members LaunchedMunitionRecord.parseInto LaunchedMunitionRecord.parseHeap := by
  unfold LaunchedMunitionRecord.parseInto LaunchedMunitionRecord.parseHeap
  refine .bind (.call' EventIdentifier.refines (fun o => by simp [LaunchedMunitionRecord.members, attrOf]) (fun o v => by simp [LaunchedMunitionRecord.members, putAttr, Tree.optInt, Tree.intOr])) fun _ => ?_
  refine .bind .read fun _ => ?_
  refine .bind (.set' (fun o => by simp [LaunchedMunitionRecord.members, attrOf]) (fun o => by simp [LaunchedMunitionRecord.members, putAttr, Tree.optInt, Tree.intOr])) fun _ => ?_
  refine .bind (.call' EventIdentifier.refines (fun o => by simp [LaunchedMunitionRecord.members, attrOf]) (fun o v => by simp [LaunchedMunitionRecord.members, putAttr, Tree.optInt, Tree.intOr])) fun _ => ?_
  refine .bind .read fun _ => ?_
  refine .bind (.set' (fun o => by simp [LaunchedMunitionRecord.members, attrOf]) (fun o => by simp [LaunchedMunitionRecord.members, putAttr, Tree.optInt, Tree.intOr])) fun _ => ?_
  refine .bind (.call' EventIdentifier.refines (fun o => by simp [LaunchedMunitionRecord.members, attrOf]) (fun o v => by simp [LaunchedMunitionRecord.members, putAttr, Tree.optInt, Tree.intOr])) fun _ => ?_
  refine .bind .read fun _ => ?_
  refine .bind (.set' (fun o => by simp [LaunchedMunitionRecord.members, attrOf]) (fun o => by simp [LaunchedMunitionRecord.members, putAttr, Tree.optInt, Tree.intOr])) fun _ => ?_
  refine .bind (.call' WorldCoordinates.refines (fun o => by simp [LaunchedMunitionRecord.members, attrOf]) (fun o v => by simp [LaunchedMunitionRecord.members, putAttr, Tree.optInt, Tree.intOr])) fun _ => ?_
  exact .pure

theorem LaunchedMunitionRecord.shows : Shows LaunchedMunitionRecord.members LaunchedMunitionRecord.serialize LaunchedMunitionRecord.serializeHeap := by
  unfold LaunchedMunitionRecord.serialize LaunchedMunitionRecord.serializeHeap
  refine .bind (.call EventIdentifier.shows (fun o => by simp [LaunchedMunitionRecord.members, attrOf])) ?_
  refine .bind (.putInt (fun o => by simp [LaunchedMunitionRecord.members, attrOf])) ?_
  refine .bind (.call EventIdentifier.shows (fun o => by simp [LaunchedMunitionRecord.members, attrOf])) ?_
  refine .bind (.putInt (fun o => by simp [LaunchedMunitionRecord.members, attrOf])) ?_
  refine .bind (.call EventIdentifier.shows (fun o => by simp [LaunchedMunitionRecord.members, attrOf])) ?_
  refine .bind (.putInt (fun o => by simp [LaunchedMunitionRecord.members, attrOf])) ?_
  exact .call WorldCoordinates.shows (fun o => by simp [LaunchedMunitionRecord.members, attrOf])

theorem IFFFundamentalParameterData.inits (ex : List (String × Tree)) : Inits (fun self => IFFFundamentalParameterData.initHeap self)
      (([("erp", .sc .absent), ("frequency", .sc .absent), ("pgrf", .sc .absent), ("pulseWidth", .sc .absent), ("burstLength", .sc .absent), ("applicableModes", .sc .absent), ("systemSpecificData", .sc .absent)] : List (String × Tree)) ++ ex)
      (IFFFundamentalParameterData.members {} ++ ex) := by
  unfold IFFFundamentalParameterData.initHeap
  refine .bind (.set' (by simp [attrOf_putAttr_isSome, attrOf, IFFFundamentalParameterData.members])) ?_
  refine .bind (.set' (by simp [attrOf_putAttr_isSome, attrOf, IFFFundamentalParameterData.members])) ?_
  refine .bind (.set' (by simp [attrOf_putAttr_isSome, attrOf, IFFFundamentalParameterData.members])) ?_
  refine .bind (.set' (by simp [attrOf_putAttr_isSome, attrOf, IFFFundamentalParameterData.members])) ?_
  refine .bind (.set' (by simp [attrOf_putAttr_isSome, attrOf, IFFFundamentalParameterData.members])) ?_
  refine .bind (.set' (by simp [attrOf_putAttr_isSome, attrOf, IFFFundamentalParameterData.members])) ?_
  exact .cast (.setOr' (.zeros 3) (by simp [attrOf_putAttr_isSome, attrOf, IFFFundamentalParameterData.members]))
    (by simp [putAttr, IFFFundamentalParameterData.members, Tree.ints, Tree.objs, Tree.optInt, Tree.optObj, Tree.intOr])

theorem IFFFundamentalParameterData.makesNew : MakesNew IFFFundamentalParameterData.newHeap (.obj (IFFFundamentalParameterData.members IFFFundamentalParameterData.init)) :=
  .new (.cast (IFFFundamentalParameterData.inits []) (List.append_nil _))

theorem IFFFundamentalParameterData.refines : Refines IFFFundamentalParameterData.members IFFFundamentalParameterData.parseInto IFFFundamentalParameterData.parseHeap := by
  unfold IFFFundamentalParameterData.parseInto IFFFundamentalParameterData.parseHeap
  refine .bind .read fun _ => ?_
  refine .bind (.set' (fun o => by simp [IFFFundamentalParameterData.members, attrOf]) (fun o => by simp [IFFFundamentalParameterData.members, putAttr, Tree.optInt, Tree.intOr])) fun _ => ?_
  refine .bind .read fun _ => ?_
  refine .bind (.set' (fun o => by simp [IFFFundamentalParameterData.members, attrOf]) (fun o => by simp [IFFFundamentalParameterData.members, putAttr, Tree.optInt, Tree.intOr])) fun _ => ?_
  refine .bind .read fun _ => ?_
  refine .bind (.set' (fun o => by simp [IFFFundamentalParameterData.members, attrOf]) (fun o => by simp [IFFFundamentalParameterData.members, putAttr, Tree.optInt, Tree.intOr])) fun _ => ?_
  refine .bind .read fun _ => ?_
  refine .bind (.set' (fun o => by simp [IFFFundamentalParameterData.members, attrOf]) (fun o => by simp [IFFFundamentalParameterData.members, putAttr, Tree.optInt, Tree.intOr])) fun _ => ?_
  refine .bind .read fun _ => ?_
  refine .bind (.set' (fun o => by simp [IFFFundamentalParameterData.members, attrOf]) (fun o => by simp [IFFFundamentalParameterData.members, putAttr, Tree.optInt, Tree.intOr])) fun _ => ?_
  refine .bind .read fun _ => ?_
  refine .bind (.set' (fun o => by simp [IFFFundamentalParameterData.members, attrOf]) (fun o => by simp [IFFFundamentalParameterData.members, putAttr, Tree.optInt, Tree.intOr])) fun _ => ?_
  refine .bind (.fill ⟨fun _ _ => rfl, fun _ _ _ => rfl, fun _ => rfl⟩ (fun o => by simp [IFFFundamentalParameterData.members, attrOf]) (fun o v => by simp [IFFFundamentalParameterData.members, putAttr, Tree.optInt, Tree.intOr])) fun _ => ?_
  exact .pure

theorem IFFFundamentalParameterData.shows : Shows IFFFundamentalParameterData.members IFFFundamentalParameterData.serialize IFFFundamentalParameterData.serializeHeap := by
  unfold IFFFundamentalParameterData.serialize IFFFundamentalParameterData.serializeHeap
  refine .bind (.putFloat (fun o => by simp [IFFFundamentalParameterData.members, attrOf])) ?_
  refine .bind (.putFloat (fun o => by simp [IFFFundamentalParameterData.members, attrOf])) ?_
  refine .bind (.putFloat (fun o => by simp [IFFFundamentalParameterData.members, attrOf])) ?_
  refine .bind (.putFloat (fun o => by simp [IFFFundamentalParameterData.members, attrOf])) ?_
  refine .bind (.putInt (fun o => by simp [IFFFundamentalParameterData.members, attrOf])) ?_
  refine .bind (.putInt (fun o => by simp [IFFFundamentalParameterData.members, attrOf])) ?_
  exact .items (fun o => by simp [IFFFundamentalParameterData.members, attrOf])

theorem FundamentalOperationalData.inits (ex : List (String × Tree)) : Inits (fun self => FundamentalOperationalData.initHeap self)
      (([("systemStatus", .sc .absent), ("dataField1", .sc .absent), ("informationLayers", .sc .absent), ("dataField2", .sc .absent), ("parameter1", .sc .absent), ("parameter2", .sc .absent), ("parameter3", .sc .absent), ("parameter4", .sc .absent), ("parameter5", .sc .absent), ("parameter6", .sc .absent)] : List (String × Tree)) ++ ex)
      (FundamentalOperationalData.members {} ++ ex) := by
  unfold FundamentalOperationalData.initHeap
  refine .bind (.set' (by simp [attrOf_putAttr_isSome, attrOf, FundamentalOperationalData.members])) ?_
  refine .bind (.set' (by simp [attrOf_putAttr_isSome, attrOf, FundamentalOperationalData.members])) ?_
  refine .bind (.set' (by simp [attrOf_putAttr_isSome, attrOf, FundamentalOperationalData.members])) ?_
  refine .bind (.set' (by simp [attrOf_putAttr_isSome, attrOf, FundamentalOperationalData.members])) ?_
  refine .bind (.set' (by simp [attrOf_putAttr_isSome, attrOf, FundamentalOperationalData.members])) ?_
  refine .bind (.set' (by simp [attrOf_putAttr_isSome, attrOf, FundamentalOperationalData.members])) ?_
  refine .bind (.set' (by simp [attrOf_putAttr_isSome, attrOf, FundamentalOperationalData.members])) ?_
  refine .bind (.set' (by simp [attrOf_putAttr_isSome, attrOf, FundamentalOperationalData.members])) ?_
  refine .bind (.set' (by simp [attrOf_putAttr_isSome, attrOf, FundamentalOperationalData.members])) ?_
  exact .cast (.set' (by simp [attrOf_putAttr_isSome, attrOf, FundamentalOperationalData.members]))
    (by simp [putAttr, FundamentalOperationalData.members, Tree.ints, Tree.objs, Tree.optInt, Tree.optObj, Tree.intOr])

theorem FundamentalOperationalData.makesNew : MakesNew FundamentalOperationalData.newHeap (.obj (FundamentalOperationalData.members FundamentalOperationalData.init)) :=
  .new (.cast (FundamentalOperationalData.inits []) (List.append_nil _))

theorem FundamentalOperationalData.refines : Refines FundamentalOperationalData.members FundamentalOperationalData.parseInto FundamentalOperationalData.parseHeap := by
  unfold FundamentalOperationalData.parseInto FundamentalOperationalData.parseHeap
  refine .bind .read fun _ => ?_
  refine .bind (.set' (fun o => by simp [FundamentalOperationalData.members, attrOf]) (fun o => by simp [FundamentalOperationalData.members, putAttr, Tree.optInt, Tree.intOr])) fun _ => ?_
  refine .bind .read fun _ => ?_
  refine .bind (.set' (fun o => by simp [FundamentalOperationalData.members, attrOf]) (fun o => by simp [FundamentalOperationalData.members, putAttr, Tree.optInt, Tree.intOr])) fun _ => ?_
  refine .bind .read fun _ => ?_
  refine .bind (.set' (fun o => by simp [FundamentalOperationalData.members, attrOf]) (fun o => by simp [FundamentalOperationalData.members, putAttr, Tree.optInt, Tree.intOr])) fun _ => ?_
  refine .bind .read fun _ => ?_
  refine .bind (.set' (fun o => by simp [FundamentalOperationalData.members, attrOf]) (fun o => by simp [FundamentalOperationalData.members, putAttr, Tree.optInt, Tree.intOr])) fun _ => ?_
  refine .bind .read fun _ => ?_
  refine .bind (.set' (fun o => by simp [FundamentalOperationalData.members, attrOf]) (fun o => by simp [FundamentalOperationalData.members, putAttr, Tree.optInt, Tree.intOr])) fun _ => ?_
  refine .bind .read fun _ => ?_
  refine .bind (.set' (fun o => by simp [FundamentalOperationalData.members, attrOf]) (fun o => by simp [FundamentalOperationalData.members, putAttr, Tree.optInt, Tree.intOr])) fun _ => ?_
  refine .bind .read fun _ => ?_
  refine .bind (.set' (fun o => by simp [FundamentalOperationalData.members, attrOf]) (fun o => by simp [FundamentalOperationalData.members, putAttr, Tree.optInt, Tree.intOr])) fun _ => ?_
  refine .bind .read fun _ => ?_
  refine .bind (.set' (fun o => by simp [FundamentalOperationalData.members, attrOf]) (fun o => by simp [FundamentalOperationalData.members, putAttr, Tree.optInt, Tree.intOr])) fun _ => ?_
  refine .bind .read fun _ => ?_
  refine .bind (.set' (fun o => by simp [FundamentalOperationalData.members, attrOf]) (fun o => by simp [FundamentalOperationalData.members, putAttr, Tree.optInt, Tree.intOr])) fun _ => ?_
  refine .bind .read fun _ => ?_
  refine .bind (.set' (fun o => by simp [FundamentalOperationalData.members, attrOf]) (fun o => by simp [FundamentalOperationalData.members, putAttr, Tree.optInt, Tree.intOr])) fun _ => ?_
  exact .pure

theorem FundamentalOperationalData.shows : Shows FundamentalOperationalData.members FundamentalOperationalData.serialize FundamentalOperationalData.serializeHeap := by
  unfold FundamentalOperationalData.serialize FundamentalOperationalData.serializeHeap
  refine .bind (.putInt (fun o => by simp [FundamentalOperationalData.members, attrOf])) ?_
  refine .bind (.putInt (fun o => by simp [FundamentalOperationalData.members, attrOf])) ?_
  refine .bind (.putInt (fun o => by simp [FundamentalOperationalData.members, attrOf])) ?_
  refine .bind (.putInt (fun o => by simp [FundamentalOperationalData.members, attrOf])) ?_
  refine .bind (.putInt (fun o => by simp [FundamentalOperationalData.members, attrOf])) ?_
  refine .bind (.putInt (fun o => by simp [FundamentalOperationalData.members, attrOf])) ?_
  refine .bind (.putInt (fun o => by simp [FundamentalOperationalData.members, attrOf])) ?_
  refine .bind (.putInt (fun o => by simp [FundamentalOperationalData.members, attrOf])) ?_
  refine .bind (.putInt (fun o => by simp [FundamentalOperationalData.members, attrOf])) ?_
  exact .putInt (fun o => by simp [FundamentalOperationalData.members, attrOf])

theorem IntercomCommunicationsParameters.inits (ex : List (String × Tree)) : Inits (fun self => IntercomCommunicationsParameters.initHeap self)
      (([("recordType", .sc .absent), ("recordLength", .sc .absent), ("recordSpecificField", .sc .absent)] : List (String × Tree)) ++ ex)
      (IntercomCommunicationsParameters.members {} ++ ex) := by
  unfold IntercomCommunicationsParameters.initHeap
  refine .bind (.set' (by simp [attrOf_putAttr_isSome, attrOf, IntercomCommunicationsParameters.members])) ?_
  refine .bind (.set' (by simp [attrOf_putAttr_isSome, attrOf, IntercomCommunicationsParameters.members])) ?_
  exact .cast (.set' (by simp [attrOf_putAttr_isSome, attrOf, IntercomCommunicationsParameters.members]))
    (by simp [putAttr, IntercomCommunicationsParameters.members, Tree.ints, Tree.objs, Tree.optInt, Tree.optObj, Tree.intOr])

theorem IntercomCommunicationsParameters.makesNew : MakesNew IntercomCommunicationsParameters.newHeap (.obj (IntercomCommunicationsParameters.members IntercomCommunicationsParameters.init)) :=
  .new (.cast (IntercomCommunicationsParameters.inits []) (List.append_nil _))

theorem IntercomCommunicationsParameters.refines : Refines IntercomCommunicationsParameters.members IntercomCommunicationsParameters.parseInto IntercomCommunicationsParameters.parseHeap := by
  unfold IntercomCommunicationsParameters.parseInto IntercomCommunicationsParameters.parseHeap
  refine .bind .read fun _ => ?_
  refine .bind (.set' (fun o => by simp [IntercomCommunicationsParameters.members, attrOf]) (fun o => by simp [IntercomCommunicationsParameters.members, putAttr, Tree.optInt, Tree.intOr])) fun _ => ?_
  refine .bind .read fun _ => ?_
  refine .bind (.set' (fun o => by simp [IntercomCommunicationsParameters.members, attrOf]) (fun o => by simp [IntercomCommunicationsParameters.members, putAttr, Tree.optInt, Tree.intOr])) fun _ => ?_
  refine .bind .read fun _ => ?_
  refine .bind (.set' (fun o => by simp [IntercomCommunicationsParameters.members, attrOf]) (fun o => by simp [IntercomCommunicationsParameters.members, putAttr, Tree.optInt, Tree.intOr])) fun _ => ?_
  exact .pure

theorem IntercomCommunicationsParameters.shows : Shows IntercomCommunicationsParameters.members IntercomCommunicationsParameters.serialize IntercomCommunicationsParameters.serializeHeap := by
  unfold IntercomCommunicationsParameters.serialize IntercomCommunicationsParameters.serializeHeap
  refine .bind (.putInt (fun o => by simp [IntercomCommunicationsParameters.members, attrOf])) ?_
  refine .bind (.putInt (fun o => by simp [IntercomCommunicationsParameters.members, attrOf])) ?_
  exact .putInt (fun o => by simp [IntercomCommunicationsParameters.members, attrOf])

theorem Munition.inits (ex : List (String × Tree)) : Inits (fun self => Munition.initHeap self)
      (([("munitionType", .sc .absent), ("station", .sc .absent), ("quantity", .sc .absent), ("munitionStatus", .sc .absent), ("padding", .sc .absent)] : List (String × Tree)) ++ ex)
      (Munition.members {} ++ ex) := by
  unfold Munition.initHeap
  refine .bind (.setOr' EntityType.makesNew (by simp [attrOf_putAttr_isSome, attrOf, Munition.members])) ?_
  refine .bind (.set' (by simp [attrOf_putAttr_isSome, attrOf, Munition.members])) ?_
  refine .bind (.set' (by simp [attrOf_putAttr_isSome, attrOf, Munition.members])) ?_
  refine .bind (.set' (by simp [attrOf_putAttr_isSome, attrOf, Munition.members])) ?_
  exact .cast (.set' (by simp [attrOf_putAttr_isSome, attrOf, Munition.members]))
    (by simp [putAttr, Munition.members, Tree.ints, Tree.objs, Tree.optInt, Tree.optObj, Tree.intOr])

theorem Munition.makesNew : MakesNew Munition.newHeap (.obj (Munition.members Munition.init)) :=
  .new (.cast (Munition.inits []) (List.append_nil _))

theorem Munition.refines : Refines Munition.members Munition.parseInto Munition.parseHeap := by
  unfold Munition.parseInto Munition.parseHeap
  refine .bind (.call' EntityType.refines (fun o => by simp [Munition.members, attrOf]) (fun o v => by simp [Munition.members, putAttr, Tree.optInt, Tree.intOr])) fun _ => ?_
  refine .bind .read fun _ => ?_
  refine .bind (.set' (fun o => by simp [Munition.members, attrOf]) (fun o => by simp [Munition.members, putAttr, Tree.optInt, Tree.intOr])) fun _ => ?_
  refine .bind .read fun _ => ?_
  refine .bind (.set' (fun o => by simp [Munition.members, attrOf]) (fun o => by simp [Munition.members, putAttr, Tree.optInt, Tree.intOr])) fun _ => ?_
  refine .bind .read fun _ => ?_
  refine .bind (.set' (fun o => by simp [Munition.members, attrOf]) (fun o => by simp [Munition.members, putAttr, Tree.optInt, Tree.intOr])) fun _ => ?_
  refine .bind .read fun _ => ?_
  refine .bind (.set' (fun o => by simp [Munition.members, attrOf]) (fun o => by simp [Munition.members, putAttr, Tree.optInt, Tree.intOr])) fun _ => ?_
  exact .pure

theorem Munition.shows : Shows Munition.members Munition.serialize Munition.serializeHeap := by
  unfold Munition.serialize Munition.serializeHeap
  refine .bind (.call EntityType.shows (fun o => by simp [Munition.members, attrOf])) ?_
  refine .bind (.putInt (fun o => by simp [Munition.members, attrOf])) ?_
  refine .bind (.putInt (fun o => by simp [Munition.members, attrOf])) ?_
  refine .bind (.putInt (fun o => by simp [Munition.members, attrOf])) ?_
  exact .putInt (fun o => by simp [Munition.members, attrOf])

theorem StandardVariableSpecification.inits (ex : List (String × Tree)) : Inits (fun self => StandardVariableSpecification.initHeap self)
      (([("standardVariables", .sc .absent)] : List (String × Tree)) ++ ex)
      (StandardVariableSpecification.members {} ++ ex) := by
  unfold StandardVariableSpecification.initHeap
  exact .cast (.setOr' .empty (by simp [attrOf_putAttr_isSome, attrOf, StandardVariableSpecification.members]))
    (by simp [putAttr, StandardVariableSpecification.members, Tree.ints, Tree.objs, Tree.optInt, Tree.optObj, Tree.intOr])

theorem StandardVariableSpecification.makesNew : MakesNew StandardVariableSpecification.newHeap (.obj (StandardVariableSpecification.members StandardVariableSpecification.init)) :=
  .new (.cast (StandardVariableSpecification.inits []) (List.append_nil _))

theorem StandardVariableSpecification.refines : Refines StandardVariableSpecification.members StandardVariableSpecification.parseInto StandardVariableSpecification.parseHeap := by
  unfold StandardVariableSpecification.parseInto StandardVariableSpecification.parseHeap
  refine .bind .read fun _ => ?_
  refine .bind .raises fun _ => ?_
  exact .pure

theorem StandardVariableSpecification.shows : Shows StandardVariableSpecification.members StandardVariableSpecification.serialize StandardVariableSpecification.serializeHeap := by
  unfold StandardVariableSpecification.serialize StandardVariableSpecification.serializeHeap
  refine .bind (.lenInts (fun o => by simp [StandardVariableSpecification.members, attrOf])) ?_
  exact .eachRaises (fun o => by simp [StandardVariableSpecification.members, attrOf])

theorem Vector2Float.inits (ex : List (String × Tree)) : Inits (fun self => Vector2Float.initHeap self)
      (([("x", .sc .absent), ("y", .sc .absent)] : List (String × Tree)) ++ ex)
      (Vector2Float.members {} ++ ex) := by
  unfold Vector2Float.initHeap
  refine .bind (.set' (by simp [attrOf_putAttr_isSome, attrOf, Vector2Float.members])) ?_
  exact .cast (.set' (by simp [attrOf_putAttr_isSome, attrOf, Vector2Float.members]))
    (by simp [putAttr, Vector2Float.members, Tree.ints, Tree.objs, Tree.optInt, Tree.optObj, Tree.intOr])

theorem Vector2Float.makesNew : MakesNew Vector2Float.newHeap (.obj (Vector2Float.members Vector2Float.init)) :=
  .new (.cast (Vector2Float.inits []) (List.append_nil _))

theorem Vector2Float.refines : Refines Vector2Float.members Vector2Float.parseInto Vector2Float.parseHeap := by
  unfold Vector2Float.parseInto Vector2Float.parseHeap
  refine .bind .read fun _ => ?_
  refine .bind (.set' (fun o => by simp [Vector2Float.members, attrOf]) (fun o => by simp [Vector2Float.members, putAttr, Tree.optInt, Tree.intOr])) fun _ => ?_
  refine .bind .read fun _ => ?_
  refine .bind (.set' (fun o => by simp [Vector2Float.members, attrOf]) (fun o => by simp [Vector2Float.members, putAttr, Tree.optInt, Tree.intOr])) fun _ => ?_
  exact .pure

theorem Vector2Float.shows : Shows Vector2Float.members Vector2Float.serialize Vector2Float.serializeHeap := by
  unfold Vector2Float.serialize Vector2Float.serializeHeap
  refine .bind (.putFloat (fun o => by simp [Vector2Float.members, attrOf])) ?_
  exact .putFloat (fun o => by simp [Vector2Float.members, attrOf])

theorem Environment.inits (ex : List (String × Tree)) : Inits (fun self => Environment.initHeap self)
      (([("environmentType", .sc .absent), ("length", .sc .absent), ("index", .sc .absent), ("padding0", .sc .absent), ("padding1", .sc .absent), ("padding", .sc .absent)] : List (String × Tree)) ++ ex)
      (Environment.members {} ++ ex) := by
  unfold Environment.initHeap
  refine .bind (.set' (by simp [attrOf_putAttr_isSome, attrOf, Environment.members])) ?_
  refine .bind (.set' (by simp [attrOf_putAttr_isSome, attrOf, Environment.members])) ?_
  refine .bind (.set' (by simp [attrOf_putAttr_isSome, attrOf, Environment.members])) ?_
  refine .bind (.set' (by simp [attrOf_putAttr_isSome, attrOf, Environment.members])) ?_
  exact .cast (.set' (by simp [attrOf_putAttr_isSome, attrOf, Environment.members]))
    (by simp [putAttr, Environment.members, Tree.ints, Tree.objs, Tree.optInt, Tree.optObj, Tree.intOr])

theorem Environment.makesNew : MakesNew Environment.newHeap (.obj (Environment.members Environment.init)) :=
  .new (.cast (Environment.inits []) (List.append_nil _))

theorem Environment.refines : Refines Environment.members Environment.parseInto Environment.parseHeap := by
  unfold Environment.parseInto Environment.parseHeap
  refine .bind .read fun _ => ?_
  refine .bind (.set' (fun o => by simp [Environment.members, attrOf]) (fun o => by simp [Environment.members, putAttr, Tree.optInt, Tree.intOr])) fun _ => ?_
  refine .bind .read fun _ => ?_
  refine .bind (.set' (fun o => by simp [Environment.members, attrOf]) (fun o => by simp [Environment.members, putAttr, Tree.optInt, Tree.intOr])) fun _ => ?_
  refine .bind .read fun _ => ?_
  refine .bind (.set' (fun o => by simp [Environment.members, attrOf]) (fun o => by simp [Environment.members, putAttr, Tree.optInt, Tree.intOr])) fun _ => ?_
  refine .bind .read fun _ => ?_
  refine .bind (.set' (fun o => by simp [Environment.members, attrOf]) (fun o => by simp [Environment.members, putAttr, Tree.optInt, Tree.intOr])) fun _ => ?_
  exact .pure

theorem Environment.shows : Shows Environment.members Environment.serialize Environment.serializeHeap := by
  unfold Environment.serialize Environment.serializeHeap
  refine .bind (.putInt (fun o => by simp [Environment.members, attrOf])) ?_
  refine .bind (.putInt (fun o => by simp [Environment.members, attrOf])) ?_
  refine .bind (.putInt (fun o => by simp [Environment.members, attrOf])) ?_
  exact .optAbsent (fun o => by simp [Environment.members, attrOf])

end Dis
