import Verif.Proof.HeapClasses2
import Verif.Model.Heap3
import Verif.Spec.HeapFields
import Verif.Model.InPlace4

/-!
# Methods on a memory of objects, part 3

Generated by `tools/genheap.py`.
-/

set_option linter.unusedVariables false
set_option linter.unusedSimpArgs false

namespace Dis

theorem AcousticEmitter.inits (ex : List (String × Tree)) : Inits (fun self => AcousticEmitter.initHeap self)
      (([("acousticSystemName", .sc .absent), ("acousticFunction", .sc .absent), ("acousticIDNumber", .sc .absent)] : List (String × Tree)) ++ ex)
      (AcousticEmitter.members {} ++ ex) := by
  unfold AcousticEmitter.initHeap
  refine .bind (.set' (by simp [attrOf_putAttr_isSome, attrOf, AcousticEmitter.members])) ?_
  refine .bind (.set' (by simp [attrOf_putAttr_isSome, attrOf, AcousticEmitter.members])) ?_
  exact .cast (.set' (by simp [attrOf_putAttr_isSome, attrOf, AcousticEmitter.members]))
    (by simp [putAttr, AcousticEmitter.members, Tree.ints, Tree.objs, Tree.optInt, Tree.optObj, Tree.intOr])

theorem AcousticEmitter.makesNew : MakesNew AcousticEmitter.newHeap (.obj (AcousticEmitter.members AcousticEmitter.init)) :=
  .new (.cast (AcousticEmitter.inits []) (List.append_nil _))

theorem AcousticEmitter.refines : Refines AcousticEmitter.members AcousticEmitter.parseInto AcousticEmitter.parseHeap := by
  unfold AcousticEmitter.parseInto AcousticEmitter.parseHeap
  refine .bind .read fun _ => ?_
  refine .bind (.set' (fun o => by simp [AcousticEmitter.members, attrOf]) (fun o => by simp [AcousticEmitter.members, putAttr, Tree.optInt, Tree.intOr])) fun _ => ?_
  refine .bind .read fun _ => ?_
  refine .bind (.set' (fun o => by simp [AcousticEmitter.members, attrOf]) (fun o => by simp [AcousticEmitter.members, putAttr, Tree.optInt, Tree.intOr])) fun _ => ?_
  refine .bind .read fun _ => ?_
  refine .bind (.set' (fun o => by simp [AcousticEmitter.members, attrOf]) (fun o => by simp [AcousticEmitter.members, putAttr, Tree.optInt, Tree.intOr])) fun _ => ?_
  exact .pure

theorem AcousticEmitter.shows : Shows AcousticEmitter.members AcousticEmitter.serialize AcousticEmitter.serializeHeap := by
  unfold AcousticEmitter.serialize AcousticEmitter.serializeHeap
  refine .bind (.putInt (fun o => by simp [AcousticEmitter.members, attrOf])) ?_
  refine .bind (.putInt (fun o => by simp [AcousticEmitter.members, attrOf])) ?_
  exact .putInt (fun o => by simp [AcousticEmitter.members, attrOf])

theorem AngularVelocityVector.inits (ex : List (String × Tree)) : Inits (fun self => AngularVelocityVector.initHeap self)
      (([("x", .sc .absent), ("y", .sc .absent), ("z", .sc .absent)] : List (String × Tree)) ++ ex)
      (AngularVelocityVector.members {} ++ ex) := by
  unfold AngularVelocityVector.initHeap
  refine .bind (.set' (by simp [attrOf_putAttr_isSome, attrOf, AngularVelocityVector.members])) ?_
  refine .bind (.set' (by simp [attrOf_putAttr_isSome, attrOf, AngularVelocityVector.members])) ?_
  exact .cast (.set' (by simp [attrOf_putAttr_isSome, attrOf, AngularVelocityVector.members]))
    (by simp [putAttr, AngularVelocityVector.members, Tree.ints, Tree.objs, Tree.optInt, Tree.optObj, Tree.intOr])

theorem AngularVelocityVector.makesNew : MakesNew AngularVelocityVector.newHeap (.obj (AngularVelocityVector.members AngularVelocityVector.init)) :=
  .new (.cast (AngularVelocityVector.inits []) (List.append_nil _))

theorem AngularVelocityVector.refines : Refines AngularVelocityVector.members AngularVelocityVector.parseInto AngularVelocityVector.parseHeap := by
  unfold AngularVelocityVector.parseInto AngularVelocityVector.parseHeap
  refine .bind .read fun _ => ?_
  refine .bind (.set' (fun o => by simp [AngularVelocityVector.members, attrOf]) (fun o => by simp [AngularVelocityVector.members, putAttr, Tree.optInt, Tree.intOr])) fun _ => ?_
  refine .bind .read fun _ => ?_
  refine .bind (.set' (fun o => by simp [AngularVelocityVector.members, attrOf]) (fun o => by simp [AngularVelocityVector.members, putAttr, Tree.optInt, Tree.intOr])) fun _ => ?_
  refine .bind .read fun _ => ?_
  refine .bind (.set' (fun o => by simp [AngularVelocityVector.members, attrOf]) (fun o => by simp [AngularVelocityVector.members, putAttr, Tree.optInt, Tree.intOr])) fun _ => ?_
  exact .pure

theorem AngularVelocityVector.shows : Shows AngularVelocityVector.members AngularVelocityVector.serialize AngularVelocityVector.serializeHeap := by
  unfold AngularVelocityVector.serialize AngularVelocityVector.serializeHeap
  refine .bind (.putFloat (fun o => by simp [AngularVelocityVector.members, attrOf])) ?_
  refine .bind (.putFloat (fun o => by simp [AngularVelocityVector.members, attrOf])) ?_
  exact .putFloat (fun o => by simp [AngularVelocityVector.members, attrOf])

theorem AggregateMarking.inits (ex : List (String × Tree)) : Inits (fun self => AggregateMarking.initHeap self)
      (([("characterSet", .sc .absent), ("characters", .sc .absent)] : List (String × Tree)) ++ ex)
      (AggregateMarking.members {} ++ ex) := by
  unfold AggregateMarking.initHeap
  refine .bind (.set' (by simp [attrOf_putAttr_isSome, attrOf, AggregateMarking.members])) ?_
  exact .cast (.setNew' (.zeros 31) (by simp [attrOf_putAttr_isSome, attrOf, AggregateMarking.members]))
    (by simp [putAttr, AggregateMarking.members, Tree.ints, Tree.objs, Tree.optInt, Tree.optObj, Tree.intOr])

theorem AggregateMarking.makesNew : MakesNew AggregateMarking.newHeap (.obj (AggregateMarking.members AggregateMarking.init)) :=
  .new (.cast (AggregateMarking.inits []) (List.append_nil _))

theorem AggregateMarking.refines : Refines AggregateMarking.members AggregateMarking.parseInto AggregateMarking.parseHeap := by
  unfold AggregateMarking.parseInto AggregateMarking.parseHeap
  refine .bind .read fun _ => ?_
  refine .bind (.set' (fun o => by simp [AggregateMarking.members, attrOf]) (fun o => by simp [AggregateMarking.members, putAttr, Tree.optInt, Tree.intOr])) fun _ => ?_
  refine .bind (.fill ⟨fun _ _ => rfl, fun _ _ _ => rfl, fun _ => rfl⟩ (fun o => by simp [AggregateMarking.members, attrOf]) (fun o v => by simp [AggregateMarking.members, putAttr, Tree.optInt, Tree.intOr])) fun _ => ?_
  exact .pure

theorem AggregateMarking.shows : Shows AggregateMarking.members AggregateMarking.serialize AggregateMarking.serializeHeap := by
  unfold AggregateMarking.serialize AggregateMarking.serializeHeap
  refine .bind (.putInt (fun o => by simp [AggregateMarking.members, attrOf])) ?_
  exact .items (fun o => by simp [AggregateMarking.members, attrOf])

theorem DataFilterRecord.inits (ex : List (String × Tree)) : Inits (fun self => DataFilterRecord.initHeap self)
      (([("bitFlags", .sc .absent)] : List (String × Tree)) ++ ex)
      (DataFilterRecord.members {} ++ ex) := by
  unfold DataFilterRecord.initHeap
  exact .cast (.set' (by simp [attrOf_putAttr_isSome, attrOf, DataFilterRecord.members]))
    (by simp [putAttr, DataFilterRecord.members, Tree.ints, Tree.objs, Tree.optInt, Tree.optObj, Tree.intOr])

theorem DataFilterRecord.makesNew : MakesNew DataFilterRecord.newHeap (.obj (DataFilterRecord.members DataFilterRecord.init)) :=
  .new (.cast (DataFilterRecord.inits []) (List.append_nil _))

theorem DataFilterRecord.refines : Refines DataFilterRecord.members DataFilterRecord.parseInto DataFilterRecord.parseHeap := by
  unfold DataFilterRecord.parseInto DataFilterRecord.parseHeap
  refine .bind .read fun _ => ?_
  refine .bind (.set' (fun o => by simp [DataFilterRecord.members, attrOf]) (fun o => by simp [DataFilterRecord.members, putAttr, Tree.optInt, Tree.intOr])) fun _ => ?_
  exact .pure

theorem DataFilterRecord.shows : Shows DataFilterRecord.members DataFilterRecord.serialize DataFilterRecord.serializeHeap := by
  unfold DataFilterRecord.serialize DataFilterRecord.serializeHeap
  exact .putInt (fun o => by simp [DataFilterRecord.members, attrOf])

theorem IntercomIdentifier.inits (ex : List (String × Tree)) : Inits (fun self => IntercomIdentifier.initHeap self)
      (([("siteNumber", .sc .absent), ("applicationNumber", .sc .absent), ("referenceNumber", .sc .absent), ("intercomNumber", .sc .absent)] : List (String × Tree)) ++ ex)
      (IntercomIdentifier.members {} ++ ex) := by
  unfold IntercomIdentifier.initHeap
  refine .bind (.set' (by simp [attrOf_putAttr_isSome, attrOf, IntercomIdentifier.members])) ?_
  refine .bind (.set' (by simp [attrOf_putAttr_isSome, attrOf, IntercomIdentifier.members])) ?_
  refine .bind (.set' (by simp [attrOf_putAttr_isSome, attrOf, IntercomIdentifier.members])) ?_
  exact .cast (.set' (by simp [attrOf_putAttr_isSome, attrOf, IntercomIdentifier.members]))
    (by simp [putAttr, IntercomIdentifier.members, Tree.ints, Tree.objs, Tree.optInt, Tree.optObj, Tree.intOr])

theorem IntercomIdentifier.makesNew : MakesNew IntercomIdentifier.newHeap (.obj (IntercomIdentifier.members IntercomIdentifier.init)) :=
  .new (.cast (IntercomIdentifier.inits []) (List.append_nil _))

theorem IntercomIdentifier.refines : Refines IntercomIdentifier.members IntercomIdentifier.parseInto IntercomIdentifier.parseHeap := by
  unfold IntercomIdentifier.parseInto IntercomIdentifier.parseHeap
  refine .bind .read fun _ => ?_
  refine .bind (.set' (fun o => by simp [IntercomIdentifier.members, attrOf]) (fun o => by simp [IntercomIdentifier.members, putAttr, Tree.optInt, Tree.intOr])) fun _ => ?_
  refine .bind .read fun _ => ?_
  refine .bind (.set' (fun o => by simp [IntercomIdentifier.members, attrOf]) (fun o => by simp [IntercomIdentifier.members, putAttr, Tree.optInt, Tree.intOr])) fun _ => ?_
  refine .bind .read fun _ => ?_
  refine .bind (.set' (fun o => by simp [IntercomIdentifier.members, attrOf]) (fun o => by simp [IntercomIdentifier.members, putAttr, Tree.optInt, Tree.intOr])) fun _ => ?_
  refine .bind .read fun _ => ?_
  refine .bind (.set' (fun o => by simp [IntercomIdentifier.members, attrOf]) (fun o => by simp [IntercomIdentifier.members, putAttr, Tree.optInt, Tree.intOr])) fun _ => ?_
  exact .pure

theorem IntercomIdentifier.shows : Shows IntercomIdentifier.members IntercomIdentifier.serialize IntercomIdentifier.serializeHeap := by
  unfold IntercomIdentifier.serialize IntercomIdentifier.serializeHeap
  refine .bind (.putInt (fun o => by simp [IntercomIdentifier.members, attrOf])) ?_
  refine .bind (.putInt (fun o => by simp [IntercomIdentifier.members, attrOf])) ?_
  refine .bind (.putInt (fun o => by simp [IntercomIdentifier.members, attrOf])) ?_
  exact .putInt (fun o => by simp [IntercomIdentifier.members, attrOf])

theorem StorageFuel.inits (ex : List (String × Tree)) : Inits (fun self => StorageFuel.initHeap self)
      (([("fuelQuantity", .sc .absent), ("fuelMeasurementUnits", .sc .absent), ("fuelType", .sc .absent), ("fuelLocation", .sc .absent), ("padding", .sc .absent)] : List (String × Tree)) ++ ex)
      (StorageFuel.members {} ++ ex) := by
  unfold StorageFuel.initHeap
  refine .bind (.set' (by simp [attrOf_putAttr_isSome, attrOf, StorageFuel.members])) ?_
  refine .bind (.set' (by simp [attrOf_putAttr_isSome, attrOf, StorageFuel.members])) ?_
  refine .bind (.set' (by simp [attrOf_putAttr_isSome, attrOf, StorageFuel.members])) ?_
  refine .bind (.set' (by simp [attrOf_putAttr_isSome, attrOf, StorageFuel.members])) ?_
  exact .cast (.set' (by simp [attrOf_putAttr_isSome, attrOf, StorageFuel.members]))
    (by simp [putAttr, StorageFuel.members, Tree.ints, Tree.objs, Tree.optInt, Tree.optObj, Tree.intOr])

theorem StorageFuel.makesNew : MakesNew StorageFuel.newHeap (.obj (StorageFuel.members StorageFuel.init)) :=
  .new (.cast (StorageFuel.inits []) (List.append_nil _))

theorem StorageFuel.refines : Refines StorageFuel.members StorageFuel.parseInto StorageFuel.parseHeap := by
  unfold StorageFuel.parseInto StorageFuel.parseHeap
  refine .bind .read fun _ => ?_
  refine .bind (.set' (fun o => by simp [StorageFuel.members, attrOf]) (fun o => by simp [StorageFuel.members, putAttr, Tree.optInt, Tree.intOr])) fun _ => ?_
  refine .bind .read fun _ => ?_
  refine .bind (.set' (fun o => by simp [StorageFuel.members, attrOf]) (fun o => by simp [StorageFuel.members, putAttr, Tree.optInt, Tree.intOr])) fun _ => ?_
  refine .bind .read fun _ => ?_
  refine .bind (.set' (fun o => by simp [StorageFuel.members, attrOf]) (fun o => by simp [StorageFuel.members, putAttr, Tree.optInt, Tree.intOr])) fun _ => ?_
  refine .bind .read fun _ => ?_
  refine .bind (.set' (fun o => by simp [StorageFuel.members, attrOf]) (fun o => by simp [StorageFuel.members, putAttr, Tree.optInt, Tree.intOr])) fun _ => ?_
  refine .bind .read fun _ => ?_
  refine .bind (.set' (fun o => by simp [StorageFuel.members, attrOf]) (fun o => by simp [StorageFuel.members, putAttr, Tree.optInt, Tree.intOr])) fun _ => ?_
  exact .pure

theorem StorageFuel.shows : Shows StorageFuel.members StorageFuel.serialize StorageFuel.serializeHeap := by
  unfold StorageFuel.serialize StorageFuel.serializeHeap
  refine .bind (.putInt (fun o => by simp [StorageFuel.members, attrOf])) ?_
  refine .bind (.putInt (fun o => by simp [StorageFuel.members, attrOf])) ?_
  refine .bind (.putInt (fun o => by simp [StorageFuel.members, attrOf])) ?_
  refine .bind (.putInt (fun o => by simp [StorageFuel.members, attrOf])) ?_
  exact .putInt (fun o => by simp [StorageFuel.members, attrOf])

theorem Sensor.inits (ex : List (String × Tree)) : Inits (fun self => Sensor.initHeap self)
      (([("sensorTypeSource", .sc .absent), ("sensorOnOffStatus", .sc .absent), ("sensorType", .sc .absent), ("station", .sc .absent), ("quantity", .sc .absent), ("padding", .sc .absent)] : List (String × Tree)) ++ ex)
      (Sensor.members {} ++ ex) := by
  unfold Sensor.initHeap
  refine .bind (.set' (by simp [attrOf_putAttr_isSome, attrOf, Sensor.members])) ?_
  refine .bind (.set' (by simp [attrOf_putAttr_isSome, attrOf, Sensor.members])) ?_
  refine .bind (.set' (by simp [attrOf_putAttr_isSome, attrOf, Sensor.members])) ?_
  refine .bind (.set' (by simp [attrOf_putAttr_isSome, attrOf, Sensor.members])) ?_
  refine .bind (.set' (by simp [attrOf_putAttr_isSome, attrOf, Sensor.members])) ?_
  exact .cast (.set' (by simp [attrOf_putAttr_isSome, attrOf, Sensor.members]))
    (by simp [putAttr, Sensor.members, Tree.ints, Tree.objs, Tree.optInt, Tree.optObj, Tree.intOr])

theorem Sensor.makesNew : MakesNew Sensor.newHeap (.obj (Sensor.members Sensor.init)) :=
  .new (.cast (Sensor.inits []) (List.append_nil _))

theorem Sensor.refines : Refines Sensor.members Sensor.parseInto Sensor.parseHeap := by
  unfold Sensor.parseInto Sensor.parseHeap
  refine .bind .read fun _ => ?_
  refine .bind (.set' (fun o => by simp [Sensor.members, attrOf]) (fun o => by simp [Sensor.members, putAttr, Tree.optInt, Tree.intOr])) fun _ => ?_
  refine .bind .read fun _ => ?_
  refine .bind (.set' (fun o => by simp [Sensor.members, attrOf]) (fun o => by simp [Sensor.members, putAttr, Tree.optInt, Tree.intOr])) fun _ => ?_
  refine .bind .read fun _ => ?_
  refine .bind (.set' (fun o => by simp [Sensor.members, attrOf]) (fun o => by simp [Sensor.members, putAttr, Tree.optInt, Tree.intOr])) fun _ => ?_
  refine .bind .read fun _ => ?_
  refine .bind (.set' (fun o => by simp [Sensor.members, attrOf]) (fun o => by simp [Sensor.members, putAttr, Tree.optInt, Tree.intOr])) fun _ => ?_
  refine .bind .read fun _ => ?_
  refine .bind (.set' (fun o => by simp [Sensor.members, attrOf]) (fun o => by simp [Sensor.members, putAttr, Tree.optInt, Tree.intOr])) fun _ => ?_
  refine .bind .read fun _ => ?_
  refine .bind (.set' (fun o => by simp [Sensor.members, attrOf]) (fun o => by simp [Sensor.members, putAttr, Tree.optInt, Tree.intOr])) fun _ => ?_
  exact .pure

theorem Sensor.shows : Shows Sensor.members Sensor.serialize Sensor.serializeHeap := by
  unfold Sensor.serialize Sensor.serializeHeap
  refine .bind (.putInt (fun o => by simp [Sensor.members, attrOf])) ?_
  refine .bind (.putInt (fun o => by simp [Sensor.members, attrOf])) ?_
  refine .bind (.putInt (fun o => by simp [Sensor.members, attrOf])) ?_
  refine .bind (.putInt (fun o => by simp [Sensor.members, attrOf])) ?_
  refine .bind (.putInt (fun o => by simp [Sensor.members, attrOf])) ?_
  exact .putInt (fun o => by simp [Sensor.members, attrOf])

theorem MunitionReload.inits (ex : List (String × Tree)) : Inits (fun self => MunitionReload.initHeap self)
      (([("munitionType", .sc .absent), ("station", .sc .absent), ("standardQuantity", .sc .absent), ("maximumQuantity", .sc .absent), ("standardQuantityReloadTime", .sc .absent), ("maximumQuantityReloadTime", .sc .absent)] : List (String × Tree)) ++ ex)
      (MunitionReload.members {} ++ ex) := by
  unfold MunitionReload.initHeap
  refine .bind (.setOr' EntityType.makesNew (by simp [attrOf_putAttr_isSome, attrOf, MunitionReload.members])) ?_
  refine .bind (.set' (by simp [attrOf_putAttr_isSome, attrOf, MunitionReload.members])) ?_
  refine .bind (.set' (by simp [attrOf_putAttr_isSome, attrOf, MunitionReload.members])) ?_
  refine .bind (.set' (by simp [attrOf_putAttr_isSome, attrOf, MunitionReload.members])) ?_
  refine .bind (.set' (by simp [attrOf_putAttr_isSome, attrOf, MunitionReload.members])) ?_
  exact .cast (.set' (by simp [attrOf_putAttr_isSome, attrOf, MunitionReload.members]))
    (by simp [putAttr, MunitionReload.members, Tree.ints, Tree.objs, Tree.optInt, Tree.optObj, Tree.intOr])

theorem MunitionReload.makesNew : MakesNew MunitionReload.newHeap (.obj (MunitionReload.members MunitionReload.init)) :=
  .new (.cast (MunitionReload.inits []) (List.append_nil _))

theorem MunitionReload.refines : Refines MunitionReload.members MunitionReload.parseInto MunitionReload.parseHeap := by
  unfold MunitionReload.parseInto MunitionReload.parseHeap
  refine .bind (.call' EntityType.refines (fun o => by simp [MunitionReload.members, attrOf]) (fun o v => by simp [MunitionReload.members, putAttr, Tree.optInt, Tree.intOr])) fun _ => ?_
  refine .bind .read fun _ => ?_
  refine .bind (.set' (fun o => by simp [MunitionReload.members, attrOf]) (fun o => by simp [MunitionReload.members, putAttr, Tree.optInt, Tree.intOr])) fun _ => ?_
  refine .bind .read fun _ => ?_
  refine .bind (.set' (fun o => by simp [MunitionReload.members, attrOf]) (fun o => by simp [MunitionReload.members, putAttr, Tree.optInt, Tree.intOr])) fun _ => ?_
  refine .bind .read fun _ => ?_
  refine .bind (.set' (fun o => by simp [MunitionReload.members, attrOf]) (fun o => by simp [MunitionReload.members, putAttr, Tree.optInt, Tree.intOr])) fun _ => ?_
  refine .bind .read fun _ => ?_
  refine .bind (.set' (fun o => by simp [MunitionReload.members, attrOf]) (fun o => by simp [MunitionReload.members, putAttr, Tree.optInt, Tree.intOr])) fun _ => ?_
  refine .bind .read fun _ => ?_
  refine .bind (.set' (fun o => by simp [MunitionReload.members, attrOf]) (fun o => by simp [MunitionReload.members, putAttr, Tree.optInt, Tree.intOr])) fun _ => ?_
  exact .pure

theorem MunitionReload.shows : Shows MunitionReload.members MunitionReload.serialize MunitionReload.serializeHeap := by
  unfold MunitionReload.serialize MunitionReload.serializeHeap
  refine .bind (.call EntityType.shows (fun o => by simp [MunitionReload.members, attrOf])) ?_
  refine .bind (.putInt (fun o => by simp [MunitionReload.members, attrOf])) ?_
  refine .bind (.putInt (fun o => by simp [MunitionReload.members, attrOf])) ?_
  refine .bind (.putInt (fun o => by simp [MunitionReload.members, attrOf])) ?_
  refine .bind (.putInt (fun o => by simp [MunitionReload.members, attrOf])) ?_
  exact .putInt (fun o => by simp [MunitionReload.members, attrOf])

theorem StorageFuelReload.inits (ex : List (String × Tree)) : Inits (fun self => StorageFuelReload.initHeap self)
      (([("standardQuantity", .sc .absent), ("maximumQuantity", .sc .absent), ("standardQuantityReloadTime", .sc .absent), ("maximumQuantityReloadTime", .sc .absent), ("fuelMeasurementUnits", .sc .absent), ("fuelType", .sc .absent), ("fuelLocation", .sc .absent), ("padding", .sc .absent)] : List (String × Tree)) ++ ex)
      (StorageFuelReload.members {} ++ ex) := by
  unfold StorageFuelReload.initHeap
  refine .bind (.set' (by simp [attrOf_putAttr_isSome, attrOf, StorageFuelReload.members])) ?_
  refine .bind (.set' (by simp [attrOf_putAttr_isSome, attrOf, StorageFuelReload.members])) ?_
  refine .bind (.set' (by simp [attrOf_putAttr_isSome, attrOf, StorageFuelReload.members])) ?_
  refine .bind (.set' (by simp [attrOf_putAttr_isSome, attrOf, StorageFuelReload.members])) ?_
  refine .bind (.set' (by simp [attrOf_putAttr_isSome, attrOf, StorageFuelReload.members])) ?_
  refine .bind (.set' (by simp [attrOf_putAttr_isSome, attrOf, StorageFuelReload.members])) ?_
  refine .bind (.set' (by simp [attrOf_putAttr_isSome, attrOf, StorageFuelReload.members])) ?_
  exact .cast (.set' (by simp [attrOf_putAttr_isSome, attrOf, StorageFuelReload.members]))
    (by simp [putAttr, StorageFuelReload.members, Tree.ints, Tree.objs, Tree.optInt, Tree.optObj, Tree.intOr])

theorem StorageFuelReload.makesNew : MakesNew StorageFuelReload.newHeap (.obj (StorageFuelReload.members StorageFuelReload.init)) :=
  .new (.cast (StorageFuelReload.inits []) (List.append_nil _))

theorem StorageFuelReload.refines : Refines StorageFuelReload.members StorageFuelReload.parseInto StorageFuelReload.parseHeap := by
  unfold StorageFuelReload.parseInto StorageFuelReload.parseHeap
  refine .bind .read fun _ => ?_
  refine .bind (.set' (fun o => by simp [StorageFuelReload.members, attrOf]) (fun o => by simp [StorageFuelReload.members, putAttr, Tree.optInt, Tree.intOr])) fun _ => ?_
  refine .bind .read fun _ => ?_
  refine .bind (.set' (fun o => by simp [StorageFuelReload.members, attrOf]) (fun o => by simp [StorageFuelReload.members, putAttr, Tree.optInt, Tree.intOr])) fun _ => ?_
  refine .bind .read fun _ => ?_
  refine .bind (.set' (fun o => by simp [StorageFuelReload.members, attrOf]) (fun o => by simp [StorageFuelReload.members, putAttr, Tree.optInt, Tree.intOr])) fun _ => ?_
  refine .bind .read fun _ => ?_
  refine .bind (.set' (fun o => by simp [StorageFuelReload.members, attrOf]) (fun o => by simp [StorageFuelReload.members, putAttr, Tree.optInt, Tree.intOr])) fun _ => ?_
  refine .bind .read fun _ => ?_
  refine .bind (.set' (fun o => by simp [StorageFuelReload.members, attrOf]) (fun o => by simp [StorageFuelReload.members, putAttr, Tree.optInt, Tree.intOr])) fun _ => ?_
  refine .bind .read fun _ => ?_
  refine .bind (.set' (fun o => by simp [StorageFuelReload.members, attrOf]) (fun o => by simp [StorageFuelReload.members, putAttr, Tree.optInt, Tree.intOr])) fun _ => ?_
  refine .bind .read fun _ => ?_
  refine .bind (.set' (fun o => by simp [StorageFuelReload.members, attrOf]) (fun o => by simp [StorageFuelReload.members, putAttr, Tree.optInt, Tree.intOr])) fun _ => ?_
  refine .bind .read fun _ => ?_
  refine .bind (.set' (fun o => by simp [StorageFuelReload.members, attrOf]) (fun o => by simp [StorageFuelReload.members, putAttr, Tree.optInt, Tree.intOr])) fun _ => ?_
  exact .pure

theorem StorageFuelReload.shows : Shows StorageFuelReload.members StorageFuelReload.serialize StorageFuelReload.serializeHeap := by
  unfold StorageFuelReload.serialize StorageFuelReload.serializeHeap
  refine .bind (.putInt (fun o => by simp [StorageFuelReload.members, attrOf])) ?_
  refine .bind (.putInt (fun o => by simp [StorageFuelReload.members, attrOf])) ?_
  refine .bind (.putInt (fun o => by simp [StorageFuelReload.members, attrOf])) ?_
  refine .bind (.putInt (fun o => by simp [StorageFuelReload.members, attrOf])) ?_
  refine .bind (.putInt (fun o => by simp [StorageFuelReload.members, attrOf])) ?_
  refine .bind (.putInt (fun o => by simp [StorageFuelReload.members, attrOf])) ?_
  refine .bind (.putInt (fun o => by simp [StorageFuelReload.members, attrOf])) ?_
  exact .putInt (fun o => by simp [StorageFuelReload.members, attrOf])

theorem ExpendableReload.inits (ex : List (String × Tree)) : Inits (fun self => ExpendableReload.initHeap self)
      (([("expendable", .sc .absent), ("station", .sc .absent), ("standardQuantity", .sc .absent), ("maximumQuantity", .sc .absent), ("standardQuantityReloadTime", .sc .absent), ("maximumQuantityReloadTime", .sc .absent)] : List (String × Tree)) ++ ex)
      (ExpendableReload.members {} ++ ex) := by
  unfold ExpendableReload.initHeap
  refine .bind (.setOr' EntityType.makesNew (by simp [attrOf_putAttr_isSome, attrOf, ExpendableReload.members])) ?_
  refine .bind (.set' (by simp [attrOf_putAttr_isSome, attrOf, ExpendableReload.members])) ?_
  refine .bind (.set' (by simp [attrOf_putAttr_isSome, attrOf, ExpendableReload.members])) ?_
  refine .bind (.set' (by simp [attrOf_putAttr_isSome, attrOf, ExpendableReload.members])) ?_
  refine .bind (.set' (by simp [attrOf_putAttr_isSome, attrOf, ExpendableReload.members])) ?_
  exact .cast (.set' (by simp [attrOf_putAttr_isSome, attrOf, ExpendableReload.members]))
    (by simp [putAttr, ExpendableReload.members, Tree.ints, Tree.objs, Tree.optInt, Tree.optObj, Tree.intOr])

theorem ExpendableReload.makesNew : MakesNew ExpendableReload.newHeap (.obj (ExpendableReload.members ExpendableReload.init)) :=
  .new (.cast (ExpendableReload.inits []) (List.append_nil _))

theorem ExpendableReload.refines : Refines ExpendableReload.members ExpendableReload.parseInto ExpendableReload.parseHeap := by
  unfold ExpendableReload.parseInto ExpendableReload.parseHeap
  refine .bind (.call' EntityType.refines (fun o => by simp [ExpendableReload.members, attrOf]) (fun o v => by simp [ExpendableReload.members, putAttr, Tree.optInt, Tree.intOr])) fun _ => ?_
  refine .bind .read fun _ => ?_
  refine .bind (.set' (fun o => by simp [ExpendableReload.members, attrOf]) (fun o => by simp [ExpendableReload.members, putAttr, Tree.optInt, Tree.intOr])) fun _ => ?_
  refine .bind .read fun _ => ?_
  refine .bind (.set' (fun o => by simp [ExpendableReload.members, attrOf]) (fun o => by simp [ExpendableReload.members, putAttr, Tree.optInt, Tree.intOr])) fun _ => ?_
  refine .bind .read fun _ => ?_
  refine .bind (.set' (fun o => by simp [ExpendableReload.members, attrOf]) (fun o => by simp [ExpendableReload.members, putAttr, Tree.optInt, Tree.intOr])) fun _ => ?_
  refine .bind .read fun _ => ?_
  refine .bind (.set' (fun o => by simp [ExpendableReload.members, attrOf]) (fun o => by simp [ExpendableReload.members, putAttr, Tree.optInt, Tree.intOr])) fun _ => ?_
  refine .bind .read fun _ => ?_
  refine .bind (.set' (fun o => by simp [ExpendableReload.members, attrOf]) (fun o => by simp [ExpendableReload.members, putAttr, Tree.optInt, Tree.intOr])) fun _ => ?_
  exact .pure

theorem ExpendableReload.shows : Shows ExpendableReload.members ExpendableReload.serialize ExpendableReload.serializeHeap := by
  unfold ExpendableReload.serialize ExpendableReload.serializeHeap
  refine .bind (.call EntityType.shows (fun o => by simp [ExpendableReload.members, attrOf])) ?_
  refine .bind (.putInt (fun o => by simp [ExpendableReload.members, attrOf])) ?_
  refine .bind (.putInt (fun o => by simp [ExpendableReload.members, attrOf])) ?_
  refine .bind (.putInt (fun o => by simp [ExpendableReload.members, attrOf])) ?_
  refine .bind (.putInt (fun o => by simp [ExpendableReload.members, attrOf])) ?_
  exact .putInt (fun o => by simp [ExpendableReload.members, attrOf])

theorem EngineFuelReload.inits (ex : List (String × Tree)) : Inits (fun self => EngineFuelReload.initHeap self)
      (([("standardQuantity", .sc .absent), ("maximumQuantity", .sc .absent), ("standardQuantityReloadTime", .sc .absent), ("maximumQuantityReloadTime", .sc .absent), ("fuelMeasurmentUnits", .sc .absent), ("fuelLocation", .sc .absent), ("padding", .sc .absent)] : List (String × Tree)) ++ ex)
      (EngineFuelReload.members {} ++ ex) := by
  unfold EngineFuelReload.initHeap
  refine .bind (.set' (by simp [attrOf_putAttr_isSome, attrOf, EngineFuelReload.members])) ?_
  refine .bind (.set' (by simp [attrOf_putAttr_isSome, attrOf, EngineFuelReload.members])) ?_
  refine .bind (.set' (by simp [attrOf_putAttr_isSome, attrOf, EngineFuelReload.members])) ?_
  refine .bind (.set' (by simp [attrOf_putAttr_isSome, attrOf, EngineFuelReload.members])) ?_
  refine .bind (.set' (by simp [attrOf_putAttr_isSome, attrOf, EngineFuelReload.members])) ?_
  refine .bind (.set' (by simp [attrOf_putAttr_isSome, attrOf, EngineFuelReload.members])) ?_
  exact .cast (.set' (by simp [attrOf_putAttr_isSome, attrOf, EngineFuelReload.members]))
    (by simp [putAttr, EngineFuelReload.members, Tree.ints, Tree.objs, Tree.optInt, Tree.optObj, Tree.intOr])

theorem EngineFuelReload.makesNew : MakesNew EngineFuelReload.newHeap (.obj (EngineFuelReload.members EngineFuelReload.init)) :=
  .new (.cast (EngineFuelReload.inits []) (List.append_nil _))

theorem EngineFuelReload.refines : Refines EngineFuelReload.members EngineFuelReload.parseInto EngineFuelReload.parseHeap := by
  unfold EngineFuelReload.parseInto EngineFuelReload.parseHeap
  refine .bind .read fun _ => ?_
  refine .bind (.set' (fun o => by simp [EngineFuelReload.members, attrOf]) (fun o => by simp [EngineFuelReload.members, putAttr, Tree.optInt, Tree.intOr])) fun _ => ?_
  refine .bind .read fun _ => ?_
  refine .bind (.set' (fun o => by simp [EngineFuelReload.members, attrOf]) (fun o => by simp [EngineFuelReload.members, putAttr, Tree.optInt, Tree.intOr])) fun _ => ?_
  refine .bind .read fun _ => ?_
  refine .bind (.set' (fun o => by simp [EngineFuelReload.members, attrOf]) (fun o => by simp [EngineFuelReload.members, putAttr, Tree.optInt, Tree.intOr])) fun _ => ?_
  refine .bind .read fun _ => ?_
  refine .bind (.set' (fun o => by simp [EngineFuelReload.members, attrOf]) (fun o => by simp [EngineFuelReload.members, putAttr, Tree.optInt, Tree.intOr])) fun _ => ?_
  refine .bind .read fun _ => ?_
  refine .bind (.set' (fun o => by simp [EngineFuelReload.members, attrOf]) (fun o => by simp [EngineFuelReload.members, putAttr, Tree.optInt, Tree.intOr])) fun _ => ?_
  refine .bind .read fun _ => ?_
  refine .bind (.set' (fun o => by simp [EngineFuelReload.members, attrOf]) (fun o => by simp [EngineFuelReload.members, putAttr, Tree.optInt, Tree.intOr])) fun _ => ?_
  refine .bind .read fun _ => ?_
  refine .bind (.set' (fun o => by simp [EngineFuelReload.members, attrOf]) (fun o => by simp [EngineFuelReload.members, putAttr, Tree.optInt, Tree.intOr])) fun _ => ?_
  exact .pure

theorem EngineFuelReload.shows : Shows EngineFuelReload.members EngineFuelReload.serialize EngineFuelReload.serializeHeap := by
  unfold EngineFuelReload.serialize EngineFuelReload.serializeHeap
  refine .bind (.putInt (fun o => by simp [EngineFuelReload.members, attrOf])) ?_
  refine .bind (.putInt (fun o => by simp [EngineFuelReload.members, attrOf])) ?_
  refine .bind (.putInt (fun o => by simp [EngineFuelReload.members, attrOf])) ?_
  refine .bind (.putInt (fun o => by simp [EngineFuelReload.members, attrOf])) ?_
  refine .bind (.putInt (fun o => by simp [EngineFuelReload.members, attrOf])) ?_
  refine .bind (.putInt (fun o => by simp [EngineFuelReload.members, attrOf])) ?_
  exact .putInt (fun o => by simp [EngineFuelReload.members, attrOf])

theorem UnattachedIdentifier.inits (ex : List (String × Tree)) : Inits (fun self => UnattachedIdentifier.initHeap self)
      (([("simulationAddress", .sc .absent), ("referenceNumber", .sc .absent)] : List (String × Tree)) ++ ex)
      (UnattachedIdentifier.members {} ++ ex) := by
  unfold UnattachedIdentifier.initHeap
  refine .bind (.setOr' SimulationAddress.makesNew (by simp [attrOf_putAttr_isSome, attrOf, UnattachedIdentifier.members])) ?_
  exact .cast (.set' (by simp [attrOf_putAttr_isSome, attrOf, UnattachedIdentifier.members]))
    (by simp [putAttr, UnattachedIdentifier.members, Tree.ints, Tree.objs, Tree.optInt, Tree.optObj, Tree.intOr])

theorem UnattachedIdentifier.makesNew : MakesNew UnattachedIdentifier.newHeap (.obj (UnattachedIdentifier.members UnattachedIdentifier.init)) :=
  .new (.cast (UnattachedIdentifier.inits []) (List.append_nil _))

theorem UnattachedIdentifier.refines : Refines UnattachedIdentifier.members UnattachedIdentifier.parseInto UnattachedIdentifier.parseHeap := by
  unfold UnattachedIdentifier.parseInto UnattachedIdentifier.parseHeap
  refine .bind (.call' SimulationAddress.refines (fun o => by simp [UnattachedIdentifier.members, attrOf]) (fun o v => by simp [UnattachedIdentifier.members, putAttr, Tree.optInt, Tree.intOr])) fun _ => ?_
  refine .bind .read fun _ => ?_
  refine .bind (.set' (fun o => by simp [UnattachedIdentifier.members, attrOf]) (fun o => by simp [UnattachedIdentifier.members, putAttr, Tree.optInt, Tree.intOr])) fun _ => ?_
  exact .pure

theorem UnattachedIdentifier.shows : Shows UnattachedIdentifier.members UnattachedIdentifier.serialize UnattachedIdentifier.serializeHeap := by
  unfold UnattachedIdentifier.serialize UnattachedIdentifier.serializeHeap
  refine .bind (.call SimulationAddress.shows (fun o => by simp [UnattachedIdentifier.members, attrOf])) ?_
  exact .putInt (fun o => by simp [UnattachedIdentifier.members, attrOf])

theorem EntityTypeVP.inits (ex : List (String × Tree)) : Inits (fun self => EntityTypeVP.initHeap self)
      (([("recordType", .sc (.int 3)), ("changeIndicator", .sc .absent), ("entityType", .sc .absent), ("padding", .sc .absent), ("padding1", .sc .absent)] : List (String × Tree)) ++ ex)
      (EntityTypeVP.members {} ++ ex) := by
  unfold EntityTypeVP.initHeap
  refine .bind (.set' (by simp [attrOf_putAttr_isSome, attrOf, EntityTypeVP.members])) ?_
  refine .bind (.setOr' EntityType.makesNew (by simp [attrOf_putAttr_isSome, attrOf, EntityTypeVP.members])) ?_
  refine .bind (.set' (by simp [attrOf_putAttr_isSome, attrOf, EntityTypeVP.members])) ?_
  exact .cast (.set' (by simp [attrOf_putAttr_isSome, attrOf, EntityTypeVP.members]))
    (by simp [putAttr, EntityTypeVP.members, Tree.ints, Tree.objs, Tree.optInt, Tree.optObj, Tree.intOr])

theorem EntityTypeVP.makesNew : MakesNew EntityTypeVP.newHeap (.obj (EntityTypeVP.members EntityTypeVP.init)) :=
  .new (.cast (EntityTypeVP.inits []) (List.append_nil _))

theorem EntityTypeVP.refines : Refines EntityTypeVP.members EntityTypeVP.parseInto EntityTypeVP.parseHeap := by
  unfold EntityTypeVP.parseInto EntityTypeVP.parseHeap
  refine .bind .read fun _ => ?_
  refine .bind (.set' (fun o => by simp [EntityTypeVP.members, attrOf]) (fun o => by simp [EntityTypeVP.members, putAttr, Tree.optInt, Tree.intOr])) fun _ => ?_
  refine .bind .read fun _ => ?_
  refine .bind (.set' (fun o => by simp [EntityTypeVP.members, attrOf]) (fun o => by simp [EntityTypeVP.members, putAttr, Tree.optInt, Tree.intOr])) fun _ => ?_
  refine .bind (.call' EntityType.refines (fun o => by simp [EntityTypeVP.members, attrOf]) (fun o v => by simp [EntityTypeVP.members, putAttr, Tree.optInt, Tree.intOr])) fun _ => ?_
  refine .bind .read fun _ => ?_
  refine .bind (.set' (fun o => by simp [EntityTypeVP.members, attrOf]) (fun o => by simp [EntityTypeVP.members, putAttr, Tree.optInt, Tree.intOr])) fun _ => ?_
  refine .bind .read fun _ => ?_
  refine .bind (.set' (fun o => by simp [EntityTypeVP.members, attrOf]) (fun o => by simp [EntityTypeVP.members, putAttr, Tree.optInt, Tree.intOr])) fun _ => ?_
  exact .pure

theorem EntityTypeVP.shows : Shows EntityTypeVP.members EntityTypeVP.serialize EntityTypeVP.serializeHeap := by
  unfold EntityTypeVP.serialize EntityTypeVP.serializeHeap
  refine .bind (.putInt (fun o => by simp [EntityTypeVP.members, attrOf])) ?_
  refine .bind (.putInt (fun o => by simp [EntityTypeVP.members, attrOf])) ?_
  refine .bind (.call EntityType.shows (fun o => by simp [EntityTypeVP.members, attrOf])) ?_
  refine .bind (.putInt (fun o => by simp [EntityTypeVP.members, attrOf])) ?_
  exact .putInt (fun o => by simp [EntityTypeVP.members, attrOf])

theorem BeamStatus.inits (ex : List (String × Tree)) : Inits (fun self => BeamStatus.initHeap self)
      (([("beamState", .sc .absent)] : List (String × Tree)) ++ ex)
      (BeamStatus.members {} ++ ex) := by
  unfold BeamStatus.initHeap
  exact .cast (.set' (by simp [attrOf_putAttr_isSome, attrOf, BeamStatus.members]))
    (by simp [putAttr, BeamStatus.members, Tree.ints, Tree.objs, Tree.optInt, Tree.optObj, Tree.intOr])

theorem BeamStatus.makesNew : MakesNew BeamStatus.newHeap (.obj (BeamStatus.members BeamStatus.init)) :=
  .new (.cast (BeamStatus.inits []) (List.append_nil _))

theorem BeamStatus.refines : Refines BeamStatus.members BeamStatus.parseInto BeamStatus.parseHeap := by
  unfold BeamStatus.parseInto BeamStatus.parseHeap
  refine .bind .read fun _ => ?_
  refine .bind (.set' (fun o => by simp [BeamStatus.members, attrOf]) (fun o => by simp [BeamStatus.members, putAttr, Tree.optInt, Tree.intOr])) fun _ => ?_
  exact .pure

theorem BeamStatus.shows : Shows BeamStatus.members BeamStatus.serialize BeamStatus.serializeHeap := by
  unfold BeamStatus.serialize BeamStatus.serializeHeap
  exact .putInt (k := fun v => write_unsigned_byte (v % 2)) (fun o => by simp [BeamStatus.members, attrOf])

theorem EnvironmentGeneral.inits (ex : List (String × Tree)) : Inits (fun self => EnvironmentGeneral.initHeap self)
      (([("environmentType", .sc .absent), ("length", .sc .absent), ("index", .sc .absent), ("padding", .sc .absent), ("geometry", .sc .absent), ("padding2", .sc .absent), ("padding1", .sc .absent)] : List (String × Tree)) ++ ex)
      (EnvironmentGeneral.members {} ++ ex) := by
  unfold EnvironmentGeneral.initHeap
  refine .bind (.set' (by simp [attrOf_putAttr_isSome, attrOf, EnvironmentGeneral.members])) ?_
  refine .bind (.set' (by simp [attrOf_putAttr_isSome, attrOf, EnvironmentGeneral.members])) ?_
  refine .bind (.set' (by simp [attrOf_putAttr_isSome, attrOf, EnvironmentGeneral.members])) ?_
  refine .bind (.set' (by simp [attrOf_putAttr_isSome, attrOf, EnvironmentGeneral.members])) ?_
  refine .bind (.set' (by simp [attrOf_putAttr_isSome, attrOf, EnvironmentGeneral.members])) ?_
  exact .cast (.set' (by simp [attrOf_putAttr_isSome, attrOf, EnvironmentGeneral.members]))
    (by simp [putAttr, EnvironmentGeneral.members, Tree.ints, Tree.objs, Tree.optInt, Tree.optObj, Tree.intOr])

theorem EnvironmentGeneral.makesNew : MakesNew EnvironmentGeneral.newHeap (.obj (EnvironmentGeneral.members EnvironmentGeneral.init)) :=
  .new (.cast (EnvironmentGeneral.inits []) (List.append_nil _))

theorem EnvironmentGeneral.refines : Refines EnvironmentGeneral.members EnvironmentGeneral.parseInto EnvironmentGeneral.parseHeap := by
  unfold EnvironmentGeneral.parseInto EnvironmentGeneral.parseHeap
  refine .bind .read fun _ => ?_
  refine .bind (.set' (fun o => by simp [EnvironmentGeneral.members, attrOf]) (fun o => by simp [EnvironmentGeneral.members, putAttr, Tree.optInt, Tree.intOr])) fun _ => ?_
  refine .bind .read fun _ => ?_
  refine .bind (.set' (fun o => by simp [EnvironmentGeneral.members, attrOf]) (fun o => by simp [EnvironmentGeneral.members, putAttr, Tree.optInt, Tree.intOr])) fun _ => ?_
  refine .bind .read fun _ => ?_
  refine .bind (.set' (fun o => by simp [EnvironmentGeneral.members, attrOf]) (fun o => by simp [EnvironmentGeneral.members, putAttr, Tree.optInt, Tree.intOr])) fun _ => ?_
  refine .bind .read fun _ => ?_
  refine .bind (.set' (fun o => by simp [EnvironmentGeneral.members, attrOf]) (fun o => by simp [EnvironmentGeneral.members, putAttr, Tree.optInt, Tree.intOr])) fun _ => ?_
  refine .bind .read fun _ => ?_
  refine .bind (.set' (fun o => by simp [EnvironmentGeneral.members, attrOf]) (fun o => by simp [EnvironmentGeneral.members, putAttr, Tree.optInt, Tree.intOr])) fun _ => ?_
  refine .bind .read fun _ => ?_
  refine .bind (.set' (fun o => by simp [EnvironmentGeneral.members, attrOf]) (fun o => by simp [EnvironmentGeneral.members, putAttr, Tree.optInt, Tree.intOr])) fun _ => ?_
  exact .pure

theorem EnvironmentGeneral.shows : Shows EnvironmentGeneral.members EnvironmentGeneral.serialize EnvironmentGeneral.serializeHeap := by
  unfold EnvironmentGeneral.serialize EnvironmentGeneral.serializeHeap
  refine .bind (.putInt (fun o => by simp [EnvironmentGeneral.members, attrOf])) ?_
  refine .bind (.putInt (fun o => by simp [EnvironmentGeneral.members, attrOf])) ?_
  refine .bind (.putInt (fun o => by simp [EnvironmentGeneral.members, attrOf])) ?_
  refine .bind (.optAbsent (fun o => by simp [EnvironmentGeneral.members, attrOf])) ?_
  refine .bind (.optNone (fun o => by simp [EnvironmentGeneral.members, attrOf])) ?_
  exact .putInt (fun o => by simp [EnvironmentGeneral.members, attrOf])

theorem GridAxis.inits (ex : List (String × Tree)) : Inits (fun self => GridAxis.initHeap self)
      (([("domainInitialXi", .sc .absent), ("domainFinalXi", .sc .absent), ("domainPointsXi", .sc .absent), ("interleafFactor", .sc .absent), ("axisType", .sc .absent), ("numberOfPointsOnXiAxis", .sc .absent), ("initialIndex", .sc .absent)] : List (String × Tree)) ++ ex)
      (GridAxis.members {} ++ ex) := by
  unfold GridAxis.initHeap
  refine .bind (.set' (by simp [attrOf_putAttr_isSome, attrOf, GridAxis.members])) ?_
  refine .bind (.set' (by simp [attrOf_putAttr_isSome, attrOf, GridAxis.members])) ?_
  refine .bind (.set' (by simp [attrOf_putAttr_isSome, attrOf, GridAxis.members])) ?_
  refine .bind (.set' (by simp [attrOf_putAttr_isSome, attrOf, GridAxis.members])) ?_
  refine .bind (.set' (by simp [attrOf_putAttr_isSome, attrOf, GridAxis.members])) ?_
  refine .bind (.set' (by simp [attrOf_putAttr_isSome, attrOf, GridAxis.members])) ?_
  exact .cast (.set' (by simp [attrOf_putAttr_isSome, attrOf, GridAxis.members]))
    (by simp [putAttr, GridAxis.members, Tree.ints, Tree.objs, Tree.optInt, Tree.optObj, Tree.intOr])

theorem GridAxis.makesNew : MakesNew GridAxis.newHeap (.obj (GridAxis.members GridAxis.init)) :=
  .new (.cast (GridAxis.inits []) (List.append_nil _))

theorem GridAxis.refines : Refines GridAxis.members GridAxis.parseInto GridAxis.parseHeap := by
  unfold GridAxis.parseInto GridAxis.parseHeap
  refine .bind .read fun _ => ?_
  refine .bind (.set' (fun o => by simp [GridAxis.members, attrOf]) (fun o => by simp [GridAxis.members, putAttr, Tree.optInt, Tree.intOr])) fun _ => ?_
  refine .bind .read fun _ => ?_
  refine .bind (.set' (fun o => by simp [GridAxis.members, attrOf]) (fun o => by simp [GridAxis.members, putAttr, Tree.optInt, Tree.intOr])) fun _ => ?_
  refine .bind .read fun _ => ?_
  refine .bind (.set' (fun o => by simp [GridAxis.members, attrOf]) (fun o => by simp [GridAxis.members, putAttr, Tree.optInt, Tree.intOr])) fun _ => ?_
  refine .bind .read fun _ => ?_
  refine .bind (.set' (fun o => by simp [GridAxis.members, attrOf]) (fun o => by simp [GridAxis.members, putAttr, Tree.optInt, Tree.intOr])) fun _ => ?_
  refine .bind .read fun _ => ?_
  refine .bind (.set' (fun o => by simp [GridAxis.members, attrOf]) (fun o => by simp [GridAxis.members, putAttr, Tree.optInt, Tree.intOr])) fun _ => ?_
  refine .bind .read fun _ => ?_
  refine .bind (.set' (fun o => by simp [GridAxis.members, attrOf]) (fun o => by simp [GridAxis.members, putAttr, Tree.optInt, Tree.intOr])) fun _ => ?_
  refine .bind .read fun _ => ?_
  refine .bind (.set' (fun o => by simp [GridAxis.members, attrOf]) (fun o => by simp [GridAxis.members, putAttr, Tree.optInt, Tree.intOr])) fun _ => ?_
  exact .pure

theorem GridAxis.shows : Shows GridAxis.members GridAxis.serialize GridAxis.serializeHeap := by
  unfold GridAxis.serialize GridAxis.serializeHeap
  refine .bind (.putFloat (fun o => by simp [GridAxis.members, attrOf])) ?_
  refine .bind (.putFloat (fun o => by simp [GridAxis.members, attrOf])) ?_
  refine .bind (.putInt (fun o => by simp [GridAxis.members, attrOf])) ?_
  refine .bind (.putInt (fun o => by simp [GridAxis.members, attrOf])) ?_
  refine .bind (.putInt (fun o => by simp [GridAxis.members, attrOf])) ?_
  refine .bind (.putInt (fun o => by simp [GridAxis.members, attrOf])) ?_
  exact .putInt (fun o => by simp [GridAxis.members, attrOf])

theorem RecordSpecification.inits (ex : List (String × Tree)) : Inits (fun self => RecordSpecification.initHeap self)
      (([("recordSets", .sc .absent)] : List (String × Tree)) ++ ex)
      (RecordSpecification.members {} ++ ex) := by
  unfold RecordSpecification.initHeap
  exact .cast (.setOr' .empty (by simp [attrOf_putAttr_isSome, attrOf, RecordSpecification.members]))
    (by simp [putAttr, RecordSpecification.members, Tree.ints, Tree.objs, Tree.optInt, Tree.optObj, Tree.intOr])

theorem RecordSpecification.makesNew : MakesNew RecordSpecification.newHeap (.obj (RecordSpecification.members RecordSpecification.init)) :=
  .new (.cast (RecordSpecification.inits []) (List.append_nil _))

theorem RecordSpecification.refines : Refines RecordSpecification.members RecordSpecification.parseInto RecordSpecification.parseHeap := by
  unfold RecordSpecification.parseInto RecordSpecification.parseHeap
  refine .bind .read fun _ => ?_
  refine .bind .raises fun _ => ?_
  exact .pure

theorem RecordSpecification.shows : Shows RecordSpecification.members RecordSpecification.serialize RecordSpecification.serializeHeap := by
  unfold RecordSpecification.serialize RecordSpecification.serializeHeap
  refine .bind (.lenObjs (ts := RecordSpecificationElement.members) (fun o => by simp [RecordSpecification.members, attrOf])) ?_
  exact .eachObj RecordSpecificationElement.shows (fun o => by simp [RecordSpecification.members, attrOf])

theorem EventIdentifierLiveEntity.inits (ex : List (String × Tree)) : Inits (fun self => EventIdentifierLiveEntity.initHeap self)
      (([("siteNumber", .sc .absent), ("applicationNumber", .sc .absent), ("eventNumber", .sc .absent)] : List (String × Tree)) ++ ex)
      (EventIdentifierLiveEntity.members {} ++ ex) := by
  unfold EventIdentifierLiveEntity.initHeap
  refine .bind (.set' (by simp [attrOf_putAttr_isSome, attrOf, EventIdentifierLiveEntity.members])) ?_
  refine .bind (.set' (by simp [attrOf_putAttr_isSome, attrOf, EventIdentifierLiveEntity.members])) ?_
  exact .cast (.set' (by simp [attrOf_putAttr_isSome, attrOf, EventIdentifierLiveEntity.members]))
    (by simp [putAttr, EventIdentifierLiveEntity.members, Tree.ints, Tree.objs, Tree.optInt, Tree.optObj, Tree.intOr])

theorem EventIdentifierLiveEntity.makesNew : MakesNew EventIdentifierLiveEntity.newHeap (.obj (EventIdentifierLiveEntity.members EventIdentifierLiveEntity.init)) :=
  .new (.cast (EventIdentifierLiveEntity.inits []) (List.append_nil _))

theorem EventIdentifierLiveEntity.refines : Refines EventIdentifierLiveEntity.members EventIdentifierLiveEntity.parseInto EventIdentifierLiveEntity.parseHeap := by
  unfold EventIdentifierLiveEntity.parseInto EventIdentifierLiveEntity.parseHeap
  refine .bind .read fun _ => ?_
  refine .bind (.set' (fun o => by simp [EventIdentifierLiveEntity.members, attrOf]) (fun o => by simp [EventIdentifierLiveEntity.members, putAttr, Tree.optInt, Tree.intOr])) fun _ => ?_
  refine .bind .read fun _ => ?_
  refine .bind (.set' (fun o => by simp [EventIdentifierLiveEntity.members, attrOf]) (fun o => by simp [EventIdentifierLiveEntity.members, putAttr, Tree.optInt, Tree.intOr])) fun _ => ?_
  refine .bind .read fun _ => ?_
  refine .bind (.set' (fun o => by simp [EventIdentifierLiveEntity.members, attrOf]) (fun o => by simp [EventIdentifierLiveEntity.members, putAttr, Tree.optInt, Tree.intOr])) fun _ => ?_
  exact .pure

theorem EventIdentifierLiveEntity.shows : Shows EventIdentifierLiveEntity.members EventIdentifierLiveEntity.serialize EventIdentifierLiveEntity.serializeHeap := by
  unfold EventIdentifierLiveEntity.serialize EventIdentifierLiveEntity.serializeHeap
  refine .bind (.putInt (fun o => by simp [EventIdentifierLiveEntity.members, attrOf])) ?_
  refine .bind (.putInt (fun o => by simp [EventIdentifierLiveEntity.members, attrOf])) ?_
  exact .putInt (fun o => by simp [EventIdentifierLiveEntity.members, attrOf])

theorem ExpendableDescriptor.inits (ex : List (String × Tree)) : Inits (fun self => ExpendableDescriptor.initHeap self)
      (([("expendableType", .sc .absent), ("padding", .sc .absent)] : List (String × Tree)) ++ ex)
      (ExpendableDescriptor.members {} ++ ex) := by
  unfold ExpendableDescriptor.initHeap
  refine .bind (.setOr' EntityType.makesNew (by simp [attrOf_putAttr_isSome, attrOf, ExpendableDescriptor.members])) ?_
  exact .cast (.set' (by simp [attrOf_putAttr_isSome, attrOf, ExpendableDescriptor.members]))
    (by simp [putAttr, ExpendableDescriptor.members, Tree.ints, Tree.objs, Tree.optInt, Tree.optObj, Tree.intOr])

theorem ExpendableDescriptor.makesNew : MakesNew ExpendableDescriptor.newHeap (.obj (ExpendableDescriptor.members ExpendableDescriptor.init)) :=
  .new (.cast (ExpendableDescriptor.inits []) (List.append_nil _))

theorem ExpendableDescriptor.refines : Refines ExpendableDescriptor.members ExpendableDescriptor.parseInto ExpendableDescriptor.parseHeap := by
  unfold ExpendableDescriptor.parseInto ExpendableDescriptor.parseHeap
  refine .bind (.call' EntityType.refines (fun o => by simp [ExpendableDescriptor.members, attrOf]) (fun o v => by simp [ExpendableDescriptor.members, putAttr, Tree.optInt, Tree.intOr])) fun _ => ?_
  refine .bind .read fun _ => ?_
  refine .bind (.set' (fun o => by simp [ExpendableDescriptor.members, attrOf]) (fun o => by simp [ExpendableDescriptor.members, putAttr, Tree.optInt, Tree.intOr])) fun _ => ?_
  exact .pure

theorem ExpendableDescriptor.shows : Shows ExpendableDescriptor.members ExpendableDescriptor.serialize ExpendableDescriptor.serializeHeap := by
  unfold ExpendableDescriptor.serialize ExpendableDescriptor.serializeHeap
  refine .bind (.call EntityType.shows (fun o => by simp [ExpendableDescriptor.members, attrOf])) ?_
  exact .putInt (fun o => by simp [ExpendableDescriptor.members, attrOf])

theorem PropulsionSystemData.inits (ex : List (String × Tree)) : Inits (fun self => PropulsionSystemData.initHeap self)
      (([("powerSetting", .sc .absent), ("engineRpm", .sc .absent)] : List (String × Tree)) ++ ex)
      (PropulsionSystemData.members {} ++ ex) := by
  unfold PropulsionSystemData.initHeap
  refine .bind (.set' (by simp [attrOf_putAttr_isSome, attrOf, PropulsionSystemData.members])) ?_
  exact .cast (.set' (by simp [attrOf_putAttr_isSome, attrOf, PropulsionSystemData.members]))
    (by simp [putAttr, PropulsionSystemData.members, Tree.ints, Tree.objs, Tree.optInt, Tree.optObj, Tree.intOr])

theorem PropulsionSystemData.makesNew : MakesNew PropulsionSystemData.newHeap (.obj (PropulsionSystemData.members PropulsionSystemData.init)) :=
  .new (.cast (PropulsionSystemData.inits []) (List.append_nil _))

theorem PropulsionSystemData.refines : Refines PropulsionSystemData.members PropulsionSystemData.parseInto PropulsionSystemData.parseHeap := by
  unfold PropulsionSystemData.parseInto PropulsionSystemData.parseHeap
  refine .bind .read fun _ => ?_
  refine .bind (.set' (fun o => by simp [PropulsionSystemData.members, attrOf]) (fun o => by simp [PropulsionSystemData.members, putAttr, Tree.optInt, Tree.intOr])) fun _ => ?_
  refine .bind .read fun _ => ?_
  refine .bind (.set' (fun o => by simp [PropulsionSystemData.members, attrOf]) (fun o => by simp [PropulsionSystemData.members, putAttr, Tree.optInt, Tree.intOr])) fun _ => ?_
  exact .pure

theorem PropulsionSystemData.shows : Shows PropulsionSystemData.members PropulsionSystemData.serialize PropulsionSystemData.serializeHeap := by
  unfold PropulsionSystemData.serialize PropulsionSystemData.serializeHeap
  refine .bind (.putFloat (fun o => by simp [PropulsionSystemData.members, attrOf])) ?_
  exact .putFloat (fun o => by simp [PropulsionSystemData.members, attrOf])

theorem LiveEntityIdentifier.inits (ex : List (String × Tree)) : Inits (fun self => LiveEntityIdentifier.initHeap self)
      (([("liveSimulationAddress", .sc .absent), ("entityNumber", .sc .absent)] : List (String × Tree)) ++ ex)
      (LiveEntityIdentifier.members {} ++ ex) := by
  unfold LiveEntityIdentifier.initHeap
  refine .bind (.setOr' LiveSimulationAddress.makesNew (by simp [attrOf_putAttr_isSome, attrOf, LiveEntityIdentifier.members])) ?_
  exact .cast (.set' (by simp [attrOf_putAttr_isSome, attrOf, LiveEntityIdentifier.members]))
    (by simp [putAttr, LiveEntityIdentifier.members, Tree.ints, Tree.objs, Tree.optInt, Tree.optObj, Tree.intOr])

theorem LiveEntityIdentifier.makesNew : MakesNew LiveEntityIdentifier.newHeap (.obj (LiveEntityIdentifier.members LiveEntityIdentifier.init)) :=
  .new (.cast (LiveEntityIdentifier.inits []) (List.append_nil _))

theorem LiveEntityIdentifier.refines : Refines LiveEntityIdentifier.members LiveEntityIdentifier.parseInto LiveEntityIdentifier.parseHeap := by
  unfold LiveEntityIdentifier.parseInto LiveEntityIdentifier.parseHeap
  refine .bind (.call' LiveSimulationAddress.refines (fun o => by simp [LiveEntityIdentifier.members, attrOf]) (fun o v => by simp [LiveEntityIdentifier.members, putAttr, Tree.optInt, Tree.intOr])) fun _ => ?_
  refine .bind .read fun _ => ?_
  refine .bind (.set' (fun o => by simp [LiveEntityIdentifier.members, attrOf]) (fun o => by simp [LiveEntityIdentifier.members, putAttr, Tree.optInt, Tree.intOr])) fun _ => ?_
  exact .pure

theorem LiveEntityIdentifier.shows : Shows LiveEntityIdentifier.members LiveEntityIdentifier.serialize LiveEntityIdentifier.serializeHeap := by
  unfold LiveEntityIdentifier.serialize LiveEntityIdentifier.serializeHeap
  refine .bind (.call LiveSimulationAddress.shows (fun o => by simp [LiveEntityIdentifier.members, attrOf])) ?_
  exact .putInt (fun o => by simp [LiveEntityIdentifier.members, attrOf])

theorem SeparationVP.inits (ex : List (String × Tree)) : Inits (fun self => SeparationVP.initHeap self)
      (([("recordType", .sc (.int 2)), ("reasonForSeparation", .sc .absent), ("preEntityIndicator", .sc .absent), ("padding1", .sc .absent), ("parentEntityID", .sc .absent), ("padding2", .sc .absent), ("stationLocation", .sc .absent)] : List (String × Tree)) ++ ex)
      (SeparationVP.members {} ++ ex) := by
  unfold SeparationVP.initHeap
  refine .bind (.set' (by simp [attrOf_putAttr_isSome, attrOf, SeparationVP.members])) ?_
  refine .bind (.set' (by simp [attrOf_putAttr_isSome, attrOf, SeparationVP.members])) ?_
  refine .bind (.set' (by simp [attrOf_putAttr_isSome, attrOf, SeparationVP.members])) ?_
  refine .bind (.setOr' EntityIdentifier.makesNew (by simp [attrOf_putAttr_isSome, attrOf, SeparationVP.members])) ?_
  refine .bind (.set' (by simp [attrOf_putAttr_isSome, attrOf, SeparationVP.members])) ?_
  exact .cast (.setOr' NamedLocationIdentification.makesNew (by simp [attrOf_putAttr_isSome, attrOf, SeparationVP.members]))
    (by simp [putAttr, SeparationVP.members, Tree.ints, Tree.objs, Tree.optInt, Tree.optObj, Tree.intOr])

theorem SeparationVP.makesNew : MakesNew SeparationVP.newHeap (.obj (SeparationVP.members SeparationVP.init)) :=
  .new (.cast (SeparationVP.inits []) (List.append_nil _))

theorem SeparationVP.refines : Refines SeparationVP.members SeparationVP.parseInto SeparationVP.parseHeap := by
  unfold SeparationVP.parseInto SeparationVP.parseHeap
  refine .bind .read fun _ => ?_
  refine .bind (.set' (fun o => by simp [SeparationVP.members, attrOf]) (fun o => by simp [SeparationVP.members, putAttr, Tree.optInt, Tree.intOr])) fun _ => ?_
  refine .bind .read fun _ => ?_
  refine .bind (.set' (fun o => by simp [SeparationVP.members, attrOf]) (fun o => by simp [SeparationVP.members, putAttr, Tree.optInt, Tree.intOr])) fun _ => ?_
  refine .bind .read fun _ => ?_
  refine .bind (.set' (fun o => by simp [SeparationVP.members, attrOf]) (fun o => by simp [SeparationVP.members, putAttr, Tree.optInt, Tree.intOr])) fun _ => ?_
  refine .bind .read fun _ => ?_
  refine .bind (.set' (fun o => by simp [SeparationVP.members, attrOf]) (fun o => by simp [SeparationVP.members, putAttr, Tree.optInt, Tree.intOr])) fun _ => ?_
  refine .bind (.call' EntityIdentifier.refines (fun o => by simp [SeparationVP.members, attrOf]) (fun o v => by simp [SeparationVP.members, putAttr, Tree.optInt, Tree.intOr])) fun _ => ?_
  refine .bind .read fun _ => ?_
  refine .bind (.set' (fun o => by simp [SeparationVP.members, attrOf]) (fun o => by simp [SeparationVP.members, putAttr, Tree.optInt, Tree.intOr])) fun _ => ?_
  refine .bind .read fun _ => ?_
  refine .bind (.set' (fun o => by simp [SeparationVP.members, attrOf]) (fun o => by simp [SeparationVP.members, putAttr, Tree.optInt, Tree.intOr])) fun _ => ?_
  exact .pure

theorem SeparationVP.shows : Shows SeparationVP.members SeparationVP.serialize SeparationVP.serializeHeap := by
  unfold SeparationVP.serialize SeparationVP.serializeHeap
  refine .bind (.putInt (fun o => by simp [SeparationVP.members, attrOf])) ?_
  refine .bind (.putInt (fun o => by simp [SeparationVP.members, attrOf])) ?_
  refine .bind (.putInt (fun o => by simp [SeparationVP.members, attrOf])) ?_
  refine .bind (.putInt (fun o => by simp [SeparationVP.members, attrOf])) ?_
  refine .bind (.call EntityIdentifier.shows (fun o => by simp [SeparationVP.members, attrOf])) ?_
  refine .bind (.putInt (fun o => by simp [SeparationVP.members, attrOf])) ?_
  exact .intOr (ts := NamedLocationIdentification.members) (fun o => by simp [SeparationVP.members, attrOf])

theorem EmitterSystem.inits (ex : List (String × Tree)) : Inits (fun self => EmitterSystem.initHeap self)
      (([("emitterName", .sc .absent), ("emitterFunction", .sc .absent), ("emitterIDNumber", .sc .absent)] : List (String × Tree)) ++ ex)
      (EmitterSystem.members {} ++ ex) := by
  unfold EmitterSystem.initHeap
  refine .bind (.set' (by simp [attrOf_putAttr_isSome, attrOf, EmitterSystem.members])) ?_
  refine .bind (.set' (by simp [attrOf_putAttr_isSome, attrOf, EmitterSystem.members])) ?_
  exact .cast (.set' (by simp [attrOf_putAttr_isSome, attrOf, EmitterSystem.members]))
    (by simp [putAttr, EmitterSystem.members, Tree.ints, Tree.objs, Tree.optInt, Tree.optObj, Tree.intOr])

theorem EmitterSystem.makesNew : MakesNew EmitterSystem.newHeap (.obj (EmitterSystem.members EmitterSystem.init)) :=
  .new (.cast (EmitterSystem.inits []) (List.append_nil _))

theorem EmitterSystem.refines : Refines EmitterSystem.members EmitterSystem.parseInto EmitterSystem.parseHeap := by
  unfold EmitterSystem.parseInto EmitterSystem.parseHeap
  refine .bind .read fun _ => ?_
  refine .bind (.set' (fun o => by simp [EmitterSystem.members, attrOf]) (fun o => by simp [EmitterSystem.members, putAttr, Tree.optInt, Tree.intOr])) fun _ => ?_
  refine .bind .read fun _ => ?_
  refine .bind (.set' (fun o => by simp [EmitterSystem.members, attrOf]) (fun o => by simp [EmitterSystem.members, putAttr, Tree.optInt, Tree.intOr])) fun _ => ?_
  refine .bind .read fun _ => ?_
  refine .bind (.set' (fun o => by simp [EmitterSystem.members, attrOf]) (fun o => by simp [EmitterSystem.members, putAttr, Tree.optInt, Tree.intOr])) fun _ => ?_
  exact .pure

theorem EmitterSystem.shows : Shows EmitterSystem.members EmitterSystem.serialize EmitterSystem.serializeHeap := by
  unfold EmitterSystem.serialize EmitterSystem.serializeHeap
  refine .bind (.putInt (fun o => by simp [EmitterSystem.members, attrOf])) ?_
  refine .bind (.putInt (fun o => by simp [EmitterSystem.members, attrOf])) ?_
  exact .putInt (fun o => by simp [EmitterSystem.members, attrOf])

theorem PduStatus.inits (ex : List (String × Tree)) : Inits (fun self => PduStatus.initHeap self)
      (([("pduStatus", .sc .absent)] : List (String × Tree)) ++ ex)
      (PduStatus.members {} ++ ex) := by
  unfold PduStatus.initHeap
  exact .cast (.set' (by simp [attrOf_putAttr_isSome, attrOf, PduStatus.members]))
    (by simp [putAttr, PduStatus.members, Tree.ints, Tree.objs, Tree.optInt, Tree.optObj, Tree.intOr])

theorem PduStatus.makesNew : MakesNew PduStatus.newHeap (.obj (PduStatus.members PduStatus.init)) :=
  .new (.cast (PduStatus.inits []) (List.append_nil _))

theorem PduStatus.refines : Refines PduStatus.members PduStatus.parseInto PduStatus.parseHeap := by
  unfold PduStatus.parseInto PduStatus.parseHeap
  refine .bind .read fun _ => ?_
  refine .bind (.set' (fun o => by simp [PduStatus.members, attrOf]) (fun o => by simp [PduStatus.members, putAttr, Tree.optInt, Tree.intOr])) fun _ => ?_
  exact .pure

theorem PduStatus.shows : Shows PduStatus.members PduStatus.serialize PduStatus.serializeHeap := by
  unfold PduStatus.serialize PduStatus.serializeHeap
  exact .putInt (fun o => by simp [PduStatus.members, attrOf])

theorem EmissionSystemBeamRecord.inits (ex : List (String × Tree)) : Inits (fun self => EmissionSystemBeamRecord.initHeap self)
      (([("beamDataLength", .sc .absent), ("beamIDNumber", .sc .absent), ("beamParameterIndex", .sc .absent), ("fundamentalParameterData", .sc .absent), ("beamFunction", .sc .absent), ("highDensityTrackJam", .sc .absent), ("beamStatus", .sc .absent), ("jammingModeSequence", .sc .absent), ("trackJamRecords", .sc .absent)] : List (String × Tree)) ++ ex)
      (EmissionSystemBeamRecord.members {} ++ ex) := by
  unfold EmissionSystemBeamRecord.initHeap
  refine .bind (.set' (by simp [attrOf_putAttr_isSome, attrOf, EmissionSystemBeamRecord.members])) ?_
  refine .bind (.set' (by simp [attrOf_putAttr_isSome, attrOf, EmissionSystemBeamRecord.members])) ?_
  refine .bind (.set' (by simp [attrOf_putAttr_isSome, attrOf, EmissionSystemBeamRecord.members])) ?_
  refine .bind (.setOr' EEFundamentalParameterData.makesNew (by simp [attrOf_putAttr_isSome, attrOf, EmissionSystemBeamRecord.members])) ?_
  refine .bind (.set' (by simp [attrOf_putAttr_isSome, attrOf, EmissionSystemBeamRecord.members])) ?_
  refine .bind (.set' (by simp [attrOf_putAttr_isSome, attrOf, EmissionSystemBeamRecord.members])) ?_
  refine .bind (.setOr' BeamStatus.makesNew (by simp [attrOf_putAttr_isSome, attrOf, EmissionSystemBeamRecord.members])) ?_
  refine .bind (.set' (by simp [attrOf_putAttr_isSome, attrOf, EmissionSystemBeamRecord.members])) ?_
  exact .cast (.setOr' .empty (by simp [attrOf_putAttr_isSome, attrOf, EmissionSystemBeamRecord.members]))
    (by simp [putAttr, EmissionSystemBeamRecord.members, Tree.ints, Tree.objs, Tree.optInt, Tree.optObj, Tree.intOr])

theorem EmissionSystemBeamRecord.makesNew : MakesNew EmissionSystemBeamRecord.newHeap (.obj (EmissionSystemBeamRecord.members EmissionSystemBeamRecord.init)) :=
  .new (.cast (EmissionSystemBeamRecord.inits []) (List.append_nil _))

theorem EmissionSystemBeamRecord.refines : Refines EmissionSystemBeamRecord.members EmissionSystemBeamRecord.parseInto EmissionSystemBeamRecord.parseHeap := by
  unfold EmissionSystemBeamRecord.parseInto EmissionSystemBeamRecord.parseHeap
  refine .bind .read fun _ => ?_
  refine .bind (.set' (fun o => by simp [EmissionSystemBeamRecord.members, attrOf]) (fun o => by simp [EmissionSystemBeamRecord.members, putAttr, Tree.optInt, Tree.intOr])) fun _ => ?_
  refine .bind .read fun _ => ?_
  refine .bind (.set' (fun o => by simp [EmissionSystemBeamRecord.members, attrOf]) (fun o => by simp [EmissionSystemBeamRecord.members, putAttr, Tree.optInt, Tree.intOr])) fun _ => ?_
  refine .bind .read fun _ => ?_
  refine .bind (.set' (fun o => by simp [EmissionSystemBeamRecord.members, attrOf]) (fun o => by simp [EmissionSystemBeamRecord.members, putAttr, Tree.optInt, Tree.intOr])) fun _ => ?_
  refine .bind (.call' EEFundamentalParameterData.refines (fun o => by simp [EmissionSystemBeamRecord.members, attrOf]) (fun o v => by simp [EmissionSystemBeamRecord.members, putAttr, Tree.optInt, Tree.intOr])) fun _ => ?_
  refine .bind .read fun _ => ?_
  refine .bind (.set' (fun o => by simp [EmissionSystemBeamRecord.members, attrOf]) (fun o => by simp [EmissionSystemBeamRecord.members, putAttr, Tree.optInt, Tree.intOr])) fun _ => ?_
  refine .bind .read fun _ => ?_
  refine .bind .read fun _ => ?_
  refine .bind (.set' (fun o => by simp [EmissionSystemBeamRecord.members, attrOf]) (fun o => by simp [EmissionSystemBeamRecord.members, putAttr, Tree.optInt, Tree.intOr])) fun _ => ?_
  refine .bind (.call' BeamStatus.refines (fun o => by simp [EmissionSystemBeamRecord.members, attrOf]) (fun o v => by simp [EmissionSystemBeamRecord.members, putAttr, Tree.optInt, Tree.intOr])) fun _ => ?_
  refine .bind .read fun _ => ?_
  refine .bind (.set' (fun o => by simp [EmissionSystemBeamRecord.members, attrOf]) (fun o => by simp [EmissionSystemBeamRecord.members, putAttr, Tree.optInt, Tree.intOr])) fun _ => ?_
  refine .bind (.objs TrackJamData.makesNew TrackJamData.refines (fun o => by simp [EmissionSystemBeamRecord.members, attrOf]) (fun o v => by simp [EmissionSystemBeamRecord.members, putAttr, Tree.optInt, Tree.intOr])) fun _ => ?_
  exact .pure

theorem EmissionSystemBeamRecord.shows : Shows EmissionSystemBeamRecord.members EmissionSystemBeamRecord.serialize EmissionSystemBeamRecord.serializeHeap := by
  unfold EmissionSystemBeamRecord.serialize EmissionSystemBeamRecord.serializeHeap
  refine .bind (.putInt (fun o => by simp [EmissionSystemBeamRecord.members, attrOf])) ?_
  refine .bind (.putInt (fun o => by simp [EmissionSystemBeamRecord.members, attrOf])) ?_
  refine .bind (.putInt (fun o => by simp [EmissionSystemBeamRecord.members, attrOf])) ?_
  refine .bind (.call EEFundamentalParameterData.shows (fun o => by simp [EmissionSystemBeamRecord.members, attrOf])) ?_
  refine .bind (.putInt (fun o => by simp [EmissionSystemBeamRecord.members, attrOf])) ?_
  refine .bind (.lenObjs (ts := TrackJamData.members) (fun o => by simp [EmissionSystemBeamRecord.members, attrOf])) ?_
  refine .bind (.putInt (fun o => by simp [EmissionSystemBeamRecord.members, attrOf])) ?_
  refine .bind (.call BeamStatus.shows (fun o => by simp [EmissionSystemBeamRecord.members, attrOf])) ?_
  refine .bind (.putInt (fun o => by simp [EmissionSystemBeamRecord.members, attrOf])) ?_
  exact .eachObj TrackJamData.shows (fun o => by simp [EmissionSystemBeamRecord.members, attrOf])

theorem EmissionSystemRecord.inits (ex : List (String × Tree)) : Inits (fun self => EmissionSystemRecord.initHeap self)
      (([("systemDataLength", .sc .absent), ("paddingForEmissionsPdu", .sc .absent), ("emitterSystem", .sc .absent), ("location", .sc .absent), ("beamRecords", .sc .absent)] : List (String × Tree)) ++ ex)
      (EmissionSystemRecord.members {} ++ ex) := by
  unfold EmissionSystemRecord.initHeap
  refine .bind (.set' (by simp [attrOf_putAttr_isSome, attrOf, EmissionSystemRecord.members])) ?_
  refine .bind (.set' (by simp [attrOf_putAttr_isSome, attrOf, EmissionSystemRecord.members])) ?_
  refine .bind (.setOr' EmitterSystem.makesNew (by simp [attrOf_putAttr_isSome, attrOf, EmissionSystemRecord.members])) ?_
  refine .bind (.setOr' Vector3Float.makesNew (by simp [attrOf_putAttr_isSome, attrOf, EmissionSystemRecord.members])) ?_
  exact .cast (.setOr' .empty (by simp [attrOf_putAttr_isSome, attrOf, EmissionSystemRecord.members]))
    (by simp [putAttr, EmissionSystemRecord.members, Tree.ints, Tree.objs, Tree.optInt, Tree.optObj, Tree.intOr])

theorem EmissionSystemRecord.makesNew : MakesNew EmissionSystemRecord.newHeap (.obj (EmissionSystemRecord.members EmissionSystemRecord.init)) :=
  .new (.cast (EmissionSystemRecord.inits []) (List.append_nil _))

theorem EmissionSystemRecord.refines : Refines EmissionSystemRecord.members EmissionSystemRecord.parseInto EmissionSystemRecord.parseHeap := by
  unfold EmissionSystemRecord.parseInto EmissionSystemRecord.parseHeap
  refine .bind .read fun _ => ?_
  refine .bind (.set' (fun o => by simp [EmissionSystemRecord.members, attrOf]) (fun o => by simp [EmissionSystemRecord.members, putAttr, Tree.optInt, Tree.intOr])) fun _ => ?_
  refine .bind .read fun _ => ?_
  refine .bind .read fun _ => ?_
  refine .bind (.call' EmitterSystem.refines (fun o => by simp [EmissionSystemRecord.members, attrOf]) (fun o v => by simp [EmissionSystemRecord.members, putAttr, Tree.optInt, Tree.intOr])) fun _ => ?_
  refine .bind (.call' Vector3Float.refines (fun o => by simp [EmissionSystemRecord.members, attrOf]) (fun o v => by simp [EmissionSystemRecord.members, putAttr, Tree.optInt, Tree.intOr])) fun _ => ?_
  refine .bind (.objs EmissionSystemBeamRecord.makesNew EmissionSystemBeamRecord.refines (fun o => by simp [EmissionSystemRecord.members, attrOf]) (fun o v => by simp [EmissionSystemRecord.members, putAttr, Tree.optInt, Tree.intOr])) fun _ => ?_
  exact .pure

theorem EmissionSystemRecord.shows : Shows EmissionSystemRecord.members EmissionSystemRecord.serialize EmissionSystemRecord.serializeHeap := by
  unfold EmissionSystemRecord.serialize EmissionSystemRecord.serializeHeap
  refine .bind (.putInt (fun o => by simp [EmissionSystemRecord.members, attrOf])) ?_
  refine .bind (.lenObjs (ts := EmissionSystemBeamRecord.members) (fun o => by simp [EmissionSystemRecord.members, attrOf])) ?_
  refine .bind (.write) ?_
  refine .bind (.call EmitterSystem.shows (fun o => by simp [EmissionSystemRecord.members, attrOf])) ?_
  refine .bind (.call Vector3Float.shows (fun o => by simp [EmissionSystemRecord.members, attrOf])) ?_
  exact .eachObj EmissionSystemBeamRecord.shows (fun o => by simp [EmissionSystemRecord.members, attrOf])

theorem PduSuperclass.inits (p pf : Int) (ex : List (String × Tree)) :
    Inits (fun self => PduSuperclass.initHeap self)
      (([("protocolVersion", .sc .absent), ("exerciseID", .sc .absent), ("pduType", .sc (.int p)),
        ("protocolFamily", .sc (.int pf)), ("timestamp", .sc .absent), ("length", .sc .absent)] : List (String × Tree)) ++ ex)
      (PduSuperclass.members { pduType := p, protocolFamily := pf } ++ ex) := by
  unfold PduSuperclass.initHeap
  refine .bind (.set' (by simp [attrOf])) ?_
  refine .bind (.set' (by simp [attrOf, putAttr])) ?_
  refine .hasAttr (x := p) (by simp [attrOf, putAttr]) ?_
  simp only [Bool.true_eq_false, and_false, if_false, ne_eq, not_true_eq_false]
  refine .hasAttr (x := p) (by simp [attrOf, putAttr]) ?_
  simp only [Bool.true_eq_false, and_false, if_false, ne_eq, not_true_eq_false]
  refine .bind (.set' (by simp [attrOf, putAttr])) ?_
  exact .cast (.set' (by simp [attrOf, putAttr])) (by simp [putAttr, PduSuperclass.members])

theorem PduSuperclass.refines : Refines PduSuperclass.members PduSuperclass.parseInto PduSuperclass.parseHeap := by
  unfold PduSuperclass.parseInto PduSuperclass.parseHeap
  refine .bind .read fun _ => ?_
  refine .bind (.set' (fun o => by simp [PduSuperclass.members, attrOf]) (fun o => by simp [PduSuperclass.members, putAttr, Tree.optInt, Tree.intOr])) fun _ => ?_
  refine .bind .read fun _ => ?_
  refine .bind (.set' (fun o => by simp [PduSuperclass.members, attrOf]) (fun o => by simp [PduSuperclass.members, putAttr, Tree.optInt, Tree.intOr])) fun _ => ?_
  refine .bind .read fun _ => ?_
  refine .bind (.set' (fun o => by simp [PduSuperclass.members, attrOf]) (fun o => by simp [PduSuperclass.members, putAttr, Tree.optInt, Tree.intOr])) fun _ => ?_
  refine .bind .read fun _ => ?_
  refine .bind (.set' (fun o => by simp [PduSuperclass.members, attrOf]) (fun o => by simp [PduSuperclass.members, putAttr, Tree.optInt, Tree.intOr])) fun _ => ?_
  refine .bind .read fun _ => ?_
  refine .bind (.set' (fun o => by simp [PduSuperclass.members, attrOf]) (fun o => by simp [PduSuperclass.members, putAttr, Tree.optInt, Tree.intOr])) fun _ => ?_
  refine .bind .read fun _ => ?_
  refine .bind (.set' (fun o => by simp [PduSuperclass.members, attrOf]) (fun o => by simp [PduSuperclass.members, putAttr, Tree.optInt, Tree.intOr])) fun _ => ?_
  exact .pure

theorem PduSuperclass.shows : Shows PduSuperclass.members PduSuperclass.serialize PduSuperclass.serializeHeap := by
  unfold PduSuperclass.serialize PduSuperclass.serializeHeap
  refine .bind (.putInt (fun o => by simp [PduSuperclass.members, attrOf])) ?_
  refine .bind (.putInt (fun o => by simp [PduSuperclass.members, attrOf])) ?_
  refine .bind (.putInt (fun o => by simp [PduSuperclass.members, attrOf])) ?_
  refine .bind (.putInt (fun o => by simp [PduSuperclass.members, attrOf])) ?_
  refine .bind (.putInt (fun o => by simp [PduSuperclass.members, attrOf])) ?_
  exact .putInt (fun o => by simp [PduSuperclass.members, attrOf])

theorem LiveEntityPdu.inits (p pf : Int) (ex : List (String × Tree)) : Inits (fun self => LiveEntityPdu.initHeap self)
      (([("protocolVersion", .sc .absent), ("exerciseID", .sc .absent), ("pduType", .sc (.int p)), ("protocolFamily", .sc (.int pf)), ("timestamp", .sc .absent), ("length", .sc .absent)] : List (String × Tree)) ++
      (([("subprotocolNumber", .sc .absent), ("padding", .sc .absent)] : List (String × Tree)) ++ ex))
      (LiveEntityPdu.members { pduType := p, protocolFamily := pf } ++ ex) := by
  unfold LiveEntityPdu.initHeap
  refine .bind (PduSuperclass.inits p pf _) ?_
  refine .bind (.set' (by simp [attrOf_putAttr_isSome, attrOf, LiveEntityPdu.members, PduSuperclass.members])) ?_
  exact .cast (.set' (by simp [attrOf_putAttr_isSome, attrOf, LiveEntityPdu.members, PduSuperclass.members]))
    (by simp [putAttr, LiveEntityPdu.members, PduSuperclass.members, Tree.ints, Tree.objs, Tree.optInt, Tree.optObj, Tree.intOr])

theorem LiveEntityPdu.refines : Refines LiveEntityPdu.members LiveEntityPdu.parseInto LiveEntityPdu.parseHeap := by
  unfold LiveEntityPdu.parseInto LiveEntityPdu.parseHeap
  refine .bind (.super PduSuperclass.refines (fun _ => rfl) (fun _ _ => rfl)) fun _ => ?_
  refine .bind .read fun _ => ?_
  refine .bind (.set' (fun o => by simp [LiveEntityPdu.members, PduSuperclass.members, attrOf]) (fun o => by simp [LiveEntityPdu.members, PduSuperclass.members, putAttr, Tree.optInt, Tree.intOr])) fun _ => ?_
  refine .bind .read fun _ => ?_
  refine .bind (.set' (fun o => by simp [LiveEntityPdu.members, PduSuperclass.members, attrOf]) (fun o => by simp [LiveEntityPdu.members, PduSuperclass.members, putAttr, Tree.optInt, Tree.intOr])) fun _ => ?_
  exact .pure

theorem LiveEntityPdu.shows : Shows LiveEntityPdu.members LiveEntityPdu.serialize LiveEntityPdu.serializeHeap := by
  unfold LiveEntityPdu.serialize LiveEntityPdu.serializeHeap
  refine .bind (.super PduSuperclass.shows (fun _ => rfl)) ?_
  refine .bind (.putInt (fun o => by simp [LiveEntityPdu.members, PduSuperclass.members, attrOf])) ?_
  exact .putInt (fun o => by simp [LiveEntityPdu.members, PduSuperclass.members, attrOf])

theorem Pdu.inits (p pf : Int) (ex : List (String × Tree)) : Inits (fun self => Pdu.initHeap self)
      (([("protocolVersion", .sc .absent), ("exerciseID", .sc .absent), ("pduType", .sc (.int p)), ("protocolFamily", .sc (.int pf)), ("timestamp", .sc .absent), ("length", .sc .absent)] : List (String × Tree)) ++
      (([("pduStatus", .sc .absent), ("padding", .sc .absent)] : List (String × Tree)) ++ ex))
      (Pdu.members { pduType := p, protocolFamily := pf } ++ ex) := by
  unfold Pdu.initHeap
  refine .bind (PduSuperclass.inits p pf _) ?_
  refine .bind (.set' (by simp [attrOf_putAttr_isSome, attrOf, Pdu.members, PduSuperclass.members])) ?_
  exact .cast (.set' (by simp [attrOf_putAttr_isSome, attrOf, Pdu.members, PduSuperclass.members]))
    (by simp [putAttr, Pdu.members, PduSuperclass.members, Tree.ints, Tree.objs, Tree.optInt, Tree.optObj, Tree.intOr])

theorem Pdu.refines : Refines Pdu.members Pdu.parseInto Pdu.parseHeap := by
  unfold Pdu.parseInto Pdu.parseHeap
  refine .bind (.super PduSuperclass.refines (fun _ => rfl) (fun _ _ => rfl)) fun _ => ?_
  refine .bind .read fun _ => ?_
  refine .bind (.set' (fun o => by simp [Pdu.members, PduSuperclass.members, attrOf]) (fun o => by simp [Pdu.members, PduSuperclass.members, putAttr, Tree.optInt, Tree.intOr])) fun _ => ?_
  refine .bind .read fun _ => ?_
  refine .bind (.set' (fun o => by simp [Pdu.members, PduSuperclass.members, attrOf]) (fun o => by simp [Pdu.members, PduSuperclass.members, putAttr, Tree.optInt, Tree.intOr])) fun _ => ?_
  exact .pure

theorem Pdu.shows : Shows Pdu.members Pdu.serialize Pdu.serializeHeap := by
  unfold Pdu.serialize Pdu.serializeHeap
  refine .bind (.super PduSuperclass.shows (fun _ => rfl)) ?_
  refine .bind (.putInt (fun o => by simp [Pdu.members, PduSuperclass.members, attrOf])) ?_
  exact .putInt (fun o => by simp [Pdu.members, PduSuperclass.members, attrOf])

theorem EntityInformationFamilyPdu.inits (p pf : Int) (ex : List (String × Tree)) : Inits (fun self => EntityInformationFamilyPdu.initHeap self)
      (([("protocolVersion", .sc .absent), ("exerciseID", .sc .absent), ("pduType", .sc (.int p)), ("protocolFamily", .sc (.int pf)), ("timestamp", .sc .absent), ("length", .sc .absent)] : List (String × Tree)) ++
      (([("pduStatus", .sc .absent), ("padding", .sc .absent)] : List (String × Tree)) ++
      ([] ++ ex)))
      (EntityInformationFamilyPdu.members { pduType := p, protocolFamily := pf } ++ ex) := by
  unfold EntityInformationFamilyPdu.initHeap
  exact .cast (Pdu.inits p pf _)
    (by simp [putAttr, EntityInformationFamilyPdu.members, Pdu.members, PduSuperclass.members, Tree.ints, Tree.objs, Tree.optInt, Tree.optObj, Tree.intOr])

theorem EntityInformationFamilyPdu.refines : Refines EntityInformationFamilyPdu.members EntityInformationFamilyPdu.parseInto EntityInformationFamilyPdu.parseHeap := by
  unfold EntityInformationFamilyPdu.parseInto EntityInformationFamilyPdu.parseHeap
  refine .bind (.super Pdu.refines (fun _ => rfl) (fun _ _ => rfl)) fun _ => ?_
  exact .pure

theorem EntityInformationFamilyPdu.shows : Shows EntityInformationFamilyPdu.members EntityInformationFamilyPdu.serialize EntityInformationFamilyPdu.serializeHeap := by
  unfold EntityInformationFamilyPdu.serialize EntityInformationFamilyPdu.serializeHeap
  exact .super Pdu.shows (fun _ => rfl)

theorem LogisticsFamilyPdu.inits (p pf : Int) (ex : List (String × Tree)) : Inits (fun self => LogisticsFamilyPdu.initHeap self)
      (([("protocolVersion", .sc .absent), ("exerciseID", .sc .absent), ("pduType", .sc (.int p)), ("protocolFamily", .sc (.int pf)), ("timestamp", .sc .absent), ("length", .sc .absent)] : List (String × Tree)) ++
      (([("pduStatus", .sc .absent), ("padding", .sc .absent)] : List (String × Tree)) ++
      ([] ++ ex)))
      (LogisticsFamilyPdu.members { pduType := p, protocolFamily := pf } ++ ex) := by
  unfold LogisticsFamilyPdu.initHeap
  exact .cast (Pdu.inits p pf _)
    (by simp [putAttr, LogisticsFamilyPdu.members, Pdu.members, PduSuperclass.members, Tree.ints, Tree.objs, Tree.optInt, Tree.optObj, Tree.intOr])

theorem LogisticsFamilyPdu.refines : Refines LogisticsFamilyPdu.members LogisticsFamilyPdu.parseInto LogisticsFamilyPdu.parseHeap := by
  unfold LogisticsFamilyPdu.parseInto LogisticsFamilyPdu.parseHeap
  refine .bind (.super Pdu.refines (fun _ => rfl) (fun _ _ => rfl)) fun _ => ?_
  exact .pure

theorem LogisticsFamilyPdu.shows : Shows LogisticsFamilyPdu.members LogisticsFamilyPdu.serialize LogisticsFamilyPdu.serializeHeap := by
  unfold LogisticsFamilyPdu.serialize LogisticsFamilyPdu.serializeHeap
  exact .super Pdu.shows (fun _ => rfl)

theorem EntityStateUpdatePdu.inits (p pf : Int) (ex : List (String × Tree)) : Inits (fun self => EntityStateUpdatePdu.initHeap self)
      (([("protocolVersion", .sc .absent), ("exerciseID", .sc .absent), ("pduType", .sc (.int p)), ("protocolFamily", .sc (.int pf)), ("timestamp", .sc .absent), ("length", .sc .absent)] : List (String × Tree)) ++
      (([("pduStatus", .sc .absent), ("padding", .sc .absent)] : List (String × Tree)) ++
      ([] ++
      (([("entityID", .sc .absent), ("padding1", .sc .absent), ("entityLinearVelocity", .sc .absent), ("entityLocation", .sc .absent), ("entityOrientation", .sc .absent), ("entityAppearance", .sc .absent), ("variableParameters", .sc .absent)] : List (String × Tree)) ++ ex))))
      (EntityStateUpdatePdu.members { pduType := p, protocolFamily := pf } ++ ex) := by
  unfold EntityStateUpdatePdu.initHeap
  refine .bind (EntityInformationFamilyPdu.inits p pf _) ?_
  refine .bind (.setOr' EntityIdentifier.makesNew (by simp [attrOf_putAttr_isSome, attrOf, EntityStateUpdatePdu.members, EntityInformationFamilyPdu.members, Pdu.members, PduSuperclass.members])) ?_
  refine .bind (.set' (by simp [attrOf_putAttr_isSome, attrOf, EntityStateUpdatePdu.members, EntityInformationFamilyPdu.members, Pdu.members, PduSuperclass.members])) ?_
  refine .bind (.setOr' Vector3Float.makesNew (by simp [attrOf_putAttr_isSome, attrOf, EntityStateUpdatePdu.members, EntityInformationFamilyPdu.members, Pdu.members, PduSuperclass.members])) ?_
  refine .bind (.setOr' WorldCoordinates.makesNew (by simp [attrOf_putAttr_isSome, attrOf, EntityStateUpdatePdu.members, EntityInformationFamilyPdu.members, Pdu.members, PduSuperclass.members])) ?_
  refine .bind (.setOr' EulerAngles.makesNew (by simp [attrOf_putAttr_isSome, attrOf, EntityStateUpdatePdu.members, EntityInformationFamilyPdu.members, Pdu.members, PduSuperclass.members])) ?_
  refine .bind (.set' (by simp [attrOf_putAttr_isSome, attrOf, EntityStateUpdatePdu.members, EntityInformationFamilyPdu.members, Pdu.members, PduSuperclass.members])) ?_
  exact .cast (.setOr' .empty (by simp [attrOf_putAttr_isSome, attrOf, EntityStateUpdatePdu.members, EntityInformationFamilyPdu.members, Pdu.members, PduSuperclass.members]))
    (by simp [putAttr, EntityStateUpdatePdu.members, EntityInformationFamilyPdu.members, Pdu.members, PduSuperclass.members, Tree.ints, Tree.objs, Tree.optInt, Tree.optObj, Tree.intOr])

theorem EntityStateUpdatePdu.makesNew : MakesNew EntityStateUpdatePdu.newHeap (.obj (EntityStateUpdatePdu.members EntityStateUpdatePdu.init)) :=
  .new (.cast (EntityStateUpdatePdu.inits 67 1 []) (List.append_nil _))

theorem EntityStateUpdatePdu.refines : Refines EntityStateUpdatePdu.members EntityStateUpdatePdu.parseInto EntityStateUpdatePdu.parseHeap := by
  unfold EntityStateUpdatePdu.parseInto EntityStateUpdatePdu.parseHeap
  refine .bind (.super EntityInformationFamilyPdu.refines (fun _ => rfl) (fun _ _ => rfl)) fun _ => ?_
  refine .bind (.call' EntityIdentifier.refines (fun o => by simp [EntityStateUpdatePdu.members, EntityInformationFamilyPdu.members, Pdu.members, PduSuperclass.members, attrOf]) (fun o v => by simp [EntityStateUpdatePdu.members, EntityInformationFamilyPdu.members, Pdu.members, PduSuperclass.members, putAttr, Tree.optInt, Tree.intOr])) fun _ => ?_
  refine .bind .read fun _ => ?_
  refine .bind (.set' (fun o => by simp [EntityStateUpdatePdu.members, EntityInformationFamilyPdu.members, Pdu.members, PduSuperclass.members, attrOf]) (fun o => by simp [EntityStateUpdatePdu.members, EntityInformationFamilyPdu.members, Pdu.members, PduSuperclass.members, putAttr, Tree.optInt, Tree.intOr])) fun _ => ?_
  refine .bind .read fun _ => ?_
  refine .bind (.call' Vector3Float.refines (fun o => by simp [EntityStateUpdatePdu.members, EntityInformationFamilyPdu.members, Pdu.members, PduSuperclass.members, attrOf]) (fun o v => by simp [EntityStateUpdatePdu.members, EntityInformationFamilyPdu.members, Pdu.members, PduSuperclass.members, putAttr, Tree.optInt, Tree.intOr])) fun _ => ?_
  refine .bind (.call' WorldCoordinates.refines (fun o => by simp [EntityStateUpdatePdu.members, EntityInformationFamilyPdu.members, Pdu.members, PduSuperclass.members, attrOf]) (fun o v => by simp [EntityStateUpdatePdu.members, EntityInformationFamilyPdu.members, Pdu.members, PduSuperclass.members, putAttr, Tree.optInt, Tree.intOr])) fun _ => ?_
  refine .bind (.call' EulerAngles.refines (fun o => by simp [EntityStateUpdatePdu.members, EntityInformationFamilyPdu.members, Pdu.members, PduSuperclass.members, attrOf]) (fun o v => by simp [EntityStateUpdatePdu.members, EntityInformationFamilyPdu.members, Pdu.members, PduSuperclass.members, putAttr, Tree.optInt, Tree.intOr])) fun _ => ?_
  refine .bind .read fun _ => ?_
  refine .bind (.set' (fun o => by simp [EntityStateUpdatePdu.members, EntityInformationFamilyPdu.members, Pdu.members, PduSuperclass.members, attrOf]) (fun o => by simp [EntityStateUpdatePdu.members, EntityInformationFamilyPdu.members, Pdu.members, PduSuperclass.members, putAttr, Tree.optInt, Tree.intOr])) fun _ => ?_
  refine .bind (.objs VariableParameter.makesNew VariableParameter.refines (fun o => by simp [EntityStateUpdatePdu.members, EntityInformationFamilyPdu.members, Pdu.members, PduSuperclass.members, attrOf]) (fun o v => by simp [EntityStateUpdatePdu.members, EntityInformationFamilyPdu.members, Pdu.members, PduSuperclass.members, putAttr, Tree.optInt, Tree.intOr])) fun _ => ?_
  exact .pure

theorem EntityStateUpdatePdu.shows : Shows EntityStateUpdatePdu.members EntityStateUpdatePdu.serialize EntityStateUpdatePdu.serializeHeap := by
  unfold EntityStateUpdatePdu.serialize EntityStateUpdatePdu.serializeHeap
  refine .bind (.super EntityInformationFamilyPdu.shows (fun _ => rfl)) ?_
  refine .bind (.call EntityIdentifier.shows (fun o => by simp [EntityStateUpdatePdu.members, EntityInformationFamilyPdu.members, Pdu.members, PduSuperclass.members, attrOf])) ?_
  refine .bind (.putInt (fun o => by simp [EntityStateUpdatePdu.members, EntityInformationFamilyPdu.members, Pdu.members, PduSuperclass.members, attrOf])) ?_
  refine .bind (.lenObjs (ts := VariableParameter.members) (fun o => by simp [EntityStateUpdatePdu.members, EntityInformationFamilyPdu.members, Pdu.members, PduSuperclass.members, attrOf])) ?_
  refine .bind (.call Vector3Float.shows (fun o => by simp [EntityStateUpdatePdu.members, EntityInformationFamilyPdu.members, Pdu.members, PduSuperclass.members, attrOf])) ?_
  refine .bind (.call WorldCoordinates.shows (fun o => by simp [EntityStateUpdatePdu.members, EntityInformationFamilyPdu.members, Pdu.members, PduSuperclass.members, attrOf])) ?_
  refine .bind (.call EulerAngles.shows (fun o => by simp [EntityStateUpdatePdu.members, EntityInformationFamilyPdu.members, Pdu.members, PduSuperclass.members, attrOf])) ?_
  refine .bind (.putInt (fun o => by simp [EntityStateUpdatePdu.members, EntityInformationFamilyPdu.members, Pdu.members, PduSuperclass.members, attrOf])) ?_
  exact .eachObj VariableParameter.shows (fun o => by simp [EntityStateUpdatePdu.members, EntityInformationFamilyPdu.members, Pdu.members, PduSuperclass.members, attrOf])

theorem ServiceRequestPdu.inits (p pf : Int) (ex : List (String × Tree)) : Inits (fun self => ServiceRequestPdu.initHeap self)
      (([("protocolVersion", .sc .absent), ("exerciseID", .sc .absent), ("pduType", .sc (.int p)), ("protocolFamily", .sc (.int pf)), ("timestamp", .sc .absent), ("length", .sc .absent)] : List (String × Tree)) ++
      (([("pduStatus", .sc .absent), ("padding", .sc .absent)] : List (String × Tree)) ++
      ([] ++
      (([("requestingEntityID", .sc .absent), ("servicingEntityID", .sc .absent), ("serviceTypeRequested", .sc .absent), ("serviceRequestPadding", .sc .absent), ("supplies", .sc .absent)] : List (String × Tree)) ++ ex))))
      (ServiceRequestPdu.members { pduType := p, protocolFamily := pf } ++ ex) := by
  unfold ServiceRequestPdu.initHeap
  refine .bind (LogisticsFamilyPdu.inits p pf _) ?_
  refine .bind (.setOr' EntityIdentifier.makesNew (by simp [attrOf_putAttr_isSome, attrOf, ServiceRequestPdu.members, LogisticsFamilyPdu.members, Pdu.members, PduSuperclass.members])) ?_
  refine .bind (.setOr' EntityIdentifier.makesNew (by simp [attrOf_putAttr_isSome, attrOf, ServiceRequestPdu.members, LogisticsFamilyPdu.members, Pdu.members, PduSuperclass.members])) ?_
  refine .bind (.set' (by simp [attrOf_putAttr_isSome, attrOf, ServiceRequestPdu.members, LogisticsFamilyPdu.members, Pdu.members, PduSuperclass.members])) ?_
  refine .bind (.set' (by simp [attrOf_putAttr_isSome, attrOf, ServiceRequestPdu.members, LogisticsFamilyPdu.members, Pdu.members, PduSuperclass.members])) ?_
  exact .cast (.setOr' .empty (by simp [attrOf_putAttr_isSome, attrOf, ServiceRequestPdu.members, LogisticsFamilyPdu.members, Pdu.members, PduSuperclass.members]))
    (by simp [putAttr, ServiceRequestPdu.members, LogisticsFamilyPdu.members, Pdu.members, PduSuperclass.members, Tree.ints, Tree.objs, Tree.optInt, Tree.optObj, Tree.intOr])

theorem ServiceRequestPdu.makesNew : MakesNew ServiceRequestPdu.newHeap (.obj (ServiceRequestPdu.members ServiceRequestPdu.init)) :=
  .new (.cast (ServiceRequestPdu.inits 5 3 []) (List.append_nil _))

theorem ServiceRequestPdu.refines : Refines ServiceRequestPdu.members ServiceRequestPdu.parseInto ServiceRequestPdu.parseHeap := by
  unfold ServiceRequestPdu.parseInto ServiceRequestPdu.parseHeap
  refine .bind (.super LogisticsFamilyPdu.refines (fun _ => rfl) (fun _ _ => rfl)) fun _ => ?_
  refine .bind (.call' EntityIdentifier.refines (fun o => by simp [ServiceRequestPdu.members, LogisticsFamilyPdu.members, Pdu.members, PduSuperclass.members, attrOf]) (fun o v => by simp [ServiceRequestPdu.members, LogisticsFamilyPdu.members, Pdu.members, PduSuperclass.members, putAttr, Tree.optInt, Tree.intOr])) fun _ => ?_
  refine .bind (.call' EntityIdentifier.refines (fun o => by simp [ServiceRequestPdu.members, LogisticsFamilyPdu.members, Pdu.members, PduSuperclass.members, attrOf]) (fun o v => by simp [ServiceRequestPdu.members, LogisticsFamilyPdu.members, Pdu.members, PduSuperclass.members, putAttr, Tree.optInt, Tree.intOr])) fun _ => ?_
  refine .bind .read fun _ => ?_
  refine .bind (.set' (fun o => by simp [ServiceRequestPdu.members, LogisticsFamilyPdu.members, Pdu.members, PduSuperclass.members, attrOf]) (fun o => by simp [ServiceRequestPdu.members, LogisticsFamilyPdu.members, Pdu.members, PduSuperclass.members, putAttr, Tree.optInt, Tree.intOr])) fun _ => ?_
  refine .bind .read fun _ => ?_
  refine .bind .read fun _ => ?_
  refine .bind (.set' (fun o => by simp [ServiceRequestPdu.members, LogisticsFamilyPdu.members, Pdu.members, PduSuperclass.members, attrOf]) (fun o => by simp [ServiceRequestPdu.members, LogisticsFamilyPdu.members, Pdu.members, PduSuperclass.members, putAttr, Tree.optInt, Tree.intOr])) fun _ => ?_
  refine .bind (.objs SupplyQuantity.makesNew SupplyQuantity.refines (fun o => by simp [ServiceRequestPdu.members, LogisticsFamilyPdu.members, Pdu.members, PduSuperclass.members, attrOf]) (fun o v => by simp [ServiceRequestPdu.members, LogisticsFamilyPdu.members, Pdu.members, PduSuperclass.members, putAttr, Tree.optInt, Tree.intOr])) fun _ => ?_
  exact .pure

theorem ServiceRequestPdu.shows : Shows ServiceRequestPdu.members ServiceRequestPdu.serialize ServiceRequestPdu.serializeHeap := by
  unfold ServiceRequestPdu.serialize ServiceRequestPdu.serializeHeap
  refine .bind (.super LogisticsFamilyPdu.shows (fun _ => rfl)) ?_
  refine .bind (.call EntityIdentifier.shows (fun o => by simp [ServiceRequestPdu.members, LogisticsFamilyPdu.members, Pdu.members, PduSuperclass.members, attrOf])) ?_
  refine .bind (.call EntityIdentifier.shows (fun o => by simp [ServiceRequestPdu.members, LogisticsFamilyPdu.members, Pdu.members, PduSuperclass.members, attrOf])) ?_
  refine .bind (.putInt (fun o => by simp [ServiceRequestPdu.members, LogisticsFamilyPdu.members, Pdu.members, PduSuperclass.members, attrOf])) ?_
  refine .bind (.lenObjs (ts := SupplyQuantity.members) (fun o => by simp [ServiceRequestPdu.members, LogisticsFamilyPdu.members, Pdu.members, PduSuperclass.members, attrOf])) ?_
  refine .bind (.putInt (fun o => by simp [ServiceRequestPdu.members, LogisticsFamilyPdu.members, Pdu.members, PduSuperclass.members, attrOf])) ?_
  exact .eachObj SupplyQuantity.shows (fun o => by simp [ServiceRequestPdu.members, LogisticsFamilyPdu.members, Pdu.members, PduSuperclass.members, attrOf])

theorem RepairCompletePdu.inits (p pf : Int) (ex : List (String × Tree)) : Inits (fun self => RepairCompletePdu.initHeap self)
      (([("protocolVersion", .sc .absent), ("exerciseID", .sc .absent), ("pduType", .sc (.int p)), ("protocolFamily", .sc (.int pf)), ("timestamp", .sc .absent), ("length", .sc .absent)] : List (String × Tree)) ++
      (([("pduStatus", .sc .absent), ("padding", .sc .absent)] : List (String × Tree)) ++
      ([] ++
      (([("receivingEntityID", .sc .absent), ("repairingEntityID", .sc .absent), ("repair", .sc .absent), ("padding4", .sc .absent)] : List (String × Tree)) ++ ex))))
      (RepairCompletePdu.members { pduType := p, protocolFamily := pf } ++ ex) := by
  unfold RepairCompletePdu.initHeap
  refine .bind (LogisticsFamilyPdu.inits p pf _) ?_
  refine .bind (.setOr' EntityIdentifier.makesNew (by simp [attrOf_putAttr_isSome, attrOf, RepairCompletePdu.members, LogisticsFamilyPdu.members, Pdu.members, PduSuperclass.members])) ?_
  refine .bind (.setOr' EntityIdentifier.makesNew (by simp [attrOf_putAttr_isSome, attrOf, RepairCompletePdu.members, LogisticsFamilyPdu.members, Pdu.members, PduSuperclass.members])) ?_
  refine .bind (.set' (by simp [attrOf_putAttr_isSome, attrOf, RepairCompletePdu.members, LogisticsFamilyPdu.members, Pdu.members, PduSuperclass.members])) ?_
  exact .cast (.set' (by simp [attrOf_putAttr_isSome, attrOf, RepairCompletePdu.members, LogisticsFamilyPdu.members, Pdu.members, PduSuperclass.members]))
    (by simp [putAttr, RepairCompletePdu.members, LogisticsFamilyPdu.members, Pdu.members, PduSuperclass.members, Tree.ints, Tree.objs, Tree.optInt, Tree.optObj, Tree.intOr])

theorem RepairCompletePdu.makesNew : MakesNew RepairCompletePdu.newHeap (.obj (RepairCompletePdu.members RepairCompletePdu.init)) :=
  .new (.cast (RepairCompletePdu.inits 9 3 []) (List.append_nil _))

theorem RepairCompletePdu.refines : Refines RepairCompletePdu.members RepairCompletePdu.parseInto RepairCompletePdu.parseHeap := by
  unfold RepairCompletePdu.parseInto RepairCompletePdu.parseHeap
  refine .bind (.super LogisticsFamilyPdu.refines (fun _ => rfl) (fun _ _ => rfl)) fun _ => ?_
  refine .bind (.call' EntityIdentifier.refines (fun o => by simp [RepairCompletePdu.members, LogisticsFamilyPdu.members, Pdu.members, PduSuperclass.members, attrOf]) (fun o v => by simp [RepairCompletePdu.members, LogisticsFamilyPdu.members, Pdu.members, PduSuperclass.members, putAttr, Tree.optInt, Tree.intOr])) fun _ => ?_
  refine .bind (.call' EntityIdentifier.refines (fun o => by simp [RepairCompletePdu.members, LogisticsFamilyPdu.members, Pdu.members, PduSuperclass.members, attrOf]) (fun o v => by simp [RepairCompletePdu.members, LogisticsFamilyPdu.members, Pdu.members, PduSuperclass.members, putAttr, Tree.optInt, Tree.intOr])) fun _ => ?_
  refine .bind .read fun _ => ?_
  refine .bind (.set' (fun o => by simp [RepairCompletePdu.members, LogisticsFamilyPdu.members, Pdu.members, PduSuperclass.members, attrOf]) (fun o => by simp [RepairCompletePdu.members, LogisticsFamilyPdu.members, Pdu.members, PduSuperclass.members, putAttr, Tree.optInt, Tree.intOr])) fun _ => ?_
  refine .bind .read fun _ => ?_
  refine .bind (.set' (fun o => by simp [RepairCompletePdu.members, LogisticsFamilyPdu.members, Pdu.members, PduSuperclass.members, attrOf]) (fun o => by simp [RepairCompletePdu.members, LogisticsFamilyPdu.members, Pdu.members, PduSuperclass.members, putAttr, Tree.optInt, Tree.intOr])) fun _ => ?_
  exact .pure

theorem RepairCompletePdu.shows : Shows RepairCompletePdu.members RepairCompletePdu.serialize RepairCompletePdu.serializeHeap := by
  unfold RepairCompletePdu.serialize RepairCompletePdu.serializeHeap
  refine .bind (.super LogisticsFamilyPdu.shows (fun _ => rfl)) ?_
  refine .bind (.call EntityIdentifier.shows (fun o => by simp [RepairCompletePdu.members, LogisticsFamilyPdu.members, Pdu.members, PduSuperclass.members, attrOf])) ?_
  refine .bind (.call EntityIdentifier.shows (fun o => by simp [RepairCompletePdu.members, LogisticsFamilyPdu.members, Pdu.members, PduSuperclass.members, attrOf])) ?_
  refine .bind (.putInt (fun o => by simp [RepairCompletePdu.members, LogisticsFamilyPdu.members, Pdu.members, PduSuperclass.members, attrOf])) ?_
  exact .putInt (fun o => by simp [RepairCompletePdu.members, LogisticsFamilyPdu.members, Pdu.members, PduSuperclass.members, attrOf])

theorem SyntheticEnvironmentFamilyPdu.inits (p pf : Int) (ex : List (String × Tree)) : Inits (fun self => SyntheticEnvironmentFamilyPdu.initHeap self)
      (([("protocolVersion", .sc .absent), ("exerciseID", .sc .absent), ("pduType", .sc (.int p)), ("protocolFamily", .sc (.int pf)), ("timestamp", .sc .absent), ("length", .sc .absent)] : List (String × Tree)) ++
      (([("pduStatus", .sc .absent), ("padding", .sc .absent)] : List (String × Tree)) ++
      ([] ++ ex)))
      (SyntheticEnvironmentFamilyPdu.members { pduType := p, protocolFamily := pf } ++ ex) := by
  unfold SyntheticEnvironmentFamilyPdu.initHeap
  exact .cast (Pdu.inits p pf _)
    (by simp [putAttr, SyntheticEnvironmentFamilyPdu.members, Pdu.members, PduSuperclass.members, Tree.ints, Tree.objs, Tree.optInt, Tree.optObj, Tree.intOr])

theorem SyntheticEnvironmentFamilyPdu.refines : Refines SyntheticEnvironmentFamilyPdu.members SyntheticEnvironmentFamilyPdu.parseInto SyntheticEnvironmentFamilyPdu.parseHeap := by
  unfold SyntheticEnvironmentFamilyPdu.parseInto SyntheticEnvironmentFamilyPdu.parseHeap
  refine .bind (.super Pdu.refines (fun _ => rfl) (fun _ _ => rfl)) fun _ => ?_
  exact .pure

theorem SyntheticEnvironmentFamilyPdu.shows : Shows SyntheticEnvironmentFamilyPdu.members SyntheticEnvironmentFamilyPdu.serialize SyntheticEnvironmentFamilyPdu.serializeHeap := by
  unfold SyntheticEnvironmentFamilyPdu.serialize SyntheticEnvironmentFamilyPdu.serializeHeap
  exact .super Pdu.shows (fun _ => rfl)

theorem CollisionPdu.inits (p pf : Int) (ex : List (String × Tree)) : Inits (fun self => CollisionPdu.initHeap self)
      (([("protocolVersion", .sc .absent), ("exerciseID", .sc .absent), ("pduType", .sc (.int p)), ("protocolFamily", .sc (.int pf)), ("timestamp", .sc .absent), ("length", .sc .absent)] : List (String × Tree)) ++
      (([("pduStatus", .sc .absent), ("padding", .sc .absent)] : List (String × Tree)) ++
      ([] ++
      (([("issuingEntityID", .sc .absent), ("collidingEntityID", .sc .absent), ("eventID", .sc .absent), ("collisionType", .sc .absent), ("pad", .sc .absent), ("velocity", .sc .absent), ("mass", .sc .absent), ("location", .sc .absent)] : List (String × Tree)) ++ ex))))
      (CollisionPdu.members { pduType := p, protocolFamily := pf } ++ ex) := by
  unfold CollisionPdu.initHeap
  refine .bind (EntityInformationFamilyPdu.inits p pf _) ?_
  refine .bind (.setOr' EntityIdentifier.makesNew (by simp [attrOf_putAttr_isSome, attrOf, CollisionPdu.members, EntityInformationFamilyPdu.members, Pdu.members, PduSuperclass.members])) ?_
  refine .bind (.setOr' EntityIdentifier.makesNew (by simp [attrOf_putAttr_isSome, attrOf, CollisionPdu.members, EntityInformationFamilyPdu.members, Pdu.members, PduSuperclass.members])) ?_
  refine .bind (.setOr' EventIdentifier.makesNew (by simp [attrOf_putAttr_isSome, attrOf, CollisionPdu.members, EntityInformationFamilyPdu.members, Pdu.members, PduSuperclass.members])) ?_
  refine .bind (.set' (by simp [attrOf_putAttr_isSome, attrOf, CollisionPdu.members, EntityInformationFamilyPdu.members, Pdu.members, PduSuperclass.members])) ?_
  refine .bind (.set' (by simp [attrOf_putAttr_isSome, attrOf, CollisionPdu.members, EntityInformationFamilyPdu.members, Pdu.members, PduSuperclass.members])) ?_
  refine .bind (.setOr' Vector3Float.makesNew (by simp [attrOf_putAttr_isSome, attrOf, CollisionPdu.members, EntityInformationFamilyPdu.members, Pdu.members, PduSuperclass.members])) ?_
  refine .bind (.set' (by simp [attrOf_putAttr_isSome, attrOf, CollisionPdu.members, EntityInformationFamilyPdu.members, Pdu.members, PduSuperclass.members])) ?_
  exact .cast (.setOr' Vector3Float.makesNew (by simp [attrOf_putAttr_isSome, attrOf, CollisionPdu.members, EntityInformationFamilyPdu.members, Pdu.members, PduSuperclass.members]))
    (by simp [putAttr, CollisionPdu.members, EntityInformationFamilyPdu.members, Pdu.members, PduSuperclass.members, Tree.ints, Tree.objs, Tree.optInt, Tree.optObj, Tree.intOr])

theorem CollisionPdu.makesNew : MakesNew CollisionPdu.newHeap (.obj (CollisionPdu.members CollisionPdu.init)) :=
  .new (.cast (CollisionPdu.inits 4 1 []) (List.append_nil _))

theorem CollisionPdu.refines : Refines CollisionPdu.members CollisionPdu.parseInto CollisionPdu.parseHeap := by
  unfold CollisionPdu.parseInto CollisionPdu.parseHeap
  refine .bind (.super EntityInformationFamilyPdu.refines (fun _ => rfl) (fun _ _ => rfl)) fun _ => ?_
  refine .bind (.call' EntityIdentifier.refines (fun o => by simp [CollisionPdu.members, EntityInformationFamilyPdu.members, Pdu.members, PduSuperclass.members, attrOf]) (fun o v => by simp [CollisionPdu.members, EntityInformationFamilyPdu.members, Pdu.members, PduSuperclass.members, putAttr, Tree.optInt, Tree.intOr])) fun _ => ?_
  refine .bind (.call' EntityIdentifier.refines (fun o => by simp [CollisionPdu.members, EntityInformationFamilyPdu.members, Pdu.members, PduSuperclass.members, attrOf]) (fun o v => by simp [CollisionPdu.members, EntityInformationFamilyPdu.members, Pdu.members, PduSuperclass.members, putAttr, Tree.optInt, Tree.intOr])) fun _ => ?_
  refine .bind (.call' EventIdentifier.refines (fun o => by simp [CollisionPdu.members, EntityInformationFamilyPdu.members, Pdu.members, PduSuperclass.members, attrOf]) (fun o v => by simp [CollisionPdu.members, EntityInformationFamilyPdu.members, Pdu.members, PduSuperclass.members, putAttr, Tree.optInt, Tree.intOr])) fun _ => ?_
  refine .bind .read fun _ => ?_
  refine .bind (.set' (fun o => by simp [CollisionPdu.members, EntityInformationFamilyPdu.members, Pdu.members, PduSuperclass.members, attrOf]) (fun o => by simp [CollisionPdu.members, EntityInformationFamilyPdu.members, Pdu.members, PduSuperclass.members, putAttr, Tree.optInt, Tree.intOr])) fun _ => ?_
  refine .bind .read fun _ => ?_
  refine .bind (.set' (fun o => by simp [CollisionPdu.members, EntityInformationFamilyPdu.members, Pdu.members, PduSuperclass.members, attrOf]) (fun o => by simp [CollisionPdu.members, EntityInformationFamilyPdu.members, Pdu.members, PduSuperclass.members, putAttr, Tree.optInt, Tree.intOr])) fun _ => ?_
  refine .bind (.call' Vector3Float.refines (fun o => by simp [CollisionPdu.members, EntityInformationFamilyPdu.members, Pdu.members, PduSuperclass.members, attrOf]) (fun o v => by simp [CollisionPdu.members, EntityInformationFamilyPdu.members, Pdu.members, PduSuperclass.members, putAttr, Tree.optInt, Tree.intOr])) fun _ => ?_
  refine .bind .read fun _ => ?_
  refine .bind (.set' (fun o => by simp [CollisionPdu.members, EntityInformationFamilyPdu.members, Pdu.members, PduSuperclass.members, attrOf]) (fun o => by simp [CollisionPdu.members, EntityInformationFamilyPdu.members, Pdu.members, PduSuperclass.members, putAttr, Tree.optInt, Tree.intOr])) fun _ => ?_
  refine .bind (.call' Vector3Float.refines (fun o => by simp [CollisionPdu.members, EntityInformationFamilyPdu.members, Pdu.members, PduSuperclass.members, attrOf]) (fun o v => by simp [CollisionPdu.members, EntityInformationFamilyPdu.members, Pdu.members, PduSuperclass.members, putAttr, Tree.optInt, Tree.intOr])) fun _ => ?_
  exact .pure

theorem CollisionPdu.shows : Shows CollisionPdu.members CollisionPdu.serialize CollisionPdu.serializeHeap := by
  unfold CollisionPdu.serialize CollisionPdu.serializeHeap
  refine .bind (.super EntityInformationFamilyPdu.shows (fun _ => rfl)) ?_
  refine .bind (.call EntityIdentifier.shows (fun o => by simp [CollisionPdu.members, EntityInformationFamilyPdu.members, Pdu.members, PduSuperclass.members, attrOf])) ?_
  refine .bind (.call EntityIdentifier.shows (fun o => by simp [CollisionPdu.members, EntityInformationFamilyPdu.members, Pdu.members, PduSuperclass.members, attrOf])) ?_
  refine .bind (.call EventIdentifier.shows (fun o => by simp [CollisionPdu.members, EntityInformationFamilyPdu.members, Pdu.members, PduSuperclass.members, attrOf])) ?_
  refine .bind (.putInt (fun o => by simp [CollisionPdu.members, EntityInformationFamilyPdu.members, Pdu.members, PduSuperclass.members, attrOf])) ?_
  refine .bind (.putInt (fun o => by simp [CollisionPdu.members, EntityInformationFamilyPdu.members, Pdu.members, PduSuperclass.members, attrOf])) ?_
  refine .bind (.call Vector3Float.shows (fun o => by simp [CollisionPdu.members, EntityInformationFamilyPdu.members, Pdu.members, PduSuperclass.members, attrOf])) ?_
  refine .bind (.putFloat (fun o => by simp [CollisionPdu.members, EntityInformationFamilyPdu.members, Pdu.members, PduSuperclass.members, attrOf])) ?_
  exact .call Vector3Float.shows (fun o => by simp [CollisionPdu.members, EntityInformationFamilyPdu.members, Pdu.members, PduSuperclass.members, attrOf])

theorem RepairResponsePdu.inits (p pf : Int) (ex : List (String × Tree)) : Inits (fun self => RepairResponsePdu.initHeap self)
      (([("protocolVersion", .sc .absent), ("exerciseID", .sc .absent), ("pduType", .sc (.int p)), ("protocolFamily", .sc (.int pf)), ("timestamp", .sc .absent), ("length", .sc .absent)] : List (String × Tree)) ++
      (([("pduStatus", .sc .absent), ("padding", .sc .absent)] : List (String × Tree)) ++
      ([] ++
      (([("receivingEntityID", .sc .absent), ("repairingEntityID", .sc .absent), ("repairResult", .sc .absent), ("padding1", .sc .absent), ("padding2", .sc .absent)] : List (String × Tree)) ++ ex))))
      (RepairResponsePdu.members { pduType := p, protocolFamily := pf } ++ ex) := by
  unfold RepairResponsePdu.initHeap
  refine .bind (LogisticsFamilyPdu.inits p pf _) ?_
  refine .bind (.setOr' EntityIdentifier.makesNew (by simp [attrOf_putAttr_isSome, attrOf, RepairResponsePdu.members, LogisticsFamilyPdu.members, Pdu.members, PduSuperclass.members])) ?_
  refine .bind (.setOr' EntityIdentifier.makesNew (by simp [attrOf_putAttr_isSome, attrOf, RepairResponsePdu.members, LogisticsFamilyPdu.members, Pdu.members, PduSuperclass.members])) ?_
  refine .bind (.set' (by simp [attrOf_putAttr_isSome, attrOf, RepairResponsePdu.members, LogisticsFamilyPdu.members, Pdu.members, PduSuperclass.members])) ?_
  refine .bind (.set' (by simp [attrOf_putAttr_isSome, attrOf, RepairResponsePdu.members, LogisticsFamilyPdu.members, Pdu.members, PduSuperclass.members])) ?_
  exact .cast (.set' (by simp [attrOf_putAttr_isSome, attrOf, RepairResponsePdu.members, LogisticsFamilyPdu.members, Pdu.members, PduSuperclass.members]))
    (by simp [putAttr, RepairResponsePdu.members, LogisticsFamilyPdu.members, Pdu.members, PduSuperclass.members, Tree.ints, Tree.objs, Tree.optInt, Tree.optObj, Tree.intOr])

theorem RepairResponsePdu.makesNew : MakesNew RepairResponsePdu.newHeap (.obj (RepairResponsePdu.members RepairResponsePdu.init)) :=
  .new (.cast (RepairResponsePdu.inits 10 3 []) (List.append_nil _))

theorem RepairResponsePdu.refines : Refines RepairResponsePdu.members RepairResponsePdu.parseInto RepairResponsePdu.parseHeap := by
  unfold RepairResponsePdu.parseInto RepairResponsePdu.parseHeap
  refine .bind (.super LogisticsFamilyPdu.refines (fun _ => rfl) (fun _ _ => rfl)) fun _ => ?_
  refine .bind (.call' EntityIdentifier.refines (fun o => by simp [RepairResponsePdu.members, LogisticsFamilyPdu.members, Pdu.members, PduSuperclass.members, attrOf]) (fun o v => by simp [RepairResponsePdu.members, LogisticsFamilyPdu.members, Pdu.members, PduSuperclass.members, putAttr, Tree.optInt, Tree.intOr])) fun _ => ?_
  refine .bind (.call' EntityIdentifier.refines (fun o => by simp [RepairResponsePdu.members, LogisticsFamilyPdu.members, Pdu.members, PduSuperclass.members, attrOf]) (fun o v => by simp [RepairResponsePdu.members, LogisticsFamilyPdu.members, Pdu.members, PduSuperclass.members, putAttr, Tree.optInt, Tree.intOr])) fun _ => ?_
  refine .bind .read fun _ => ?_
  refine .bind (.set' (fun o => by simp [RepairResponsePdu.members, LogisticsFamilyPdu.members, Pdu.members, PduSuperclass.members, attrOf]) (fun o => by simp [RepairResponsePdu.members, LogisticsFamilyPdu.members, Pdu.members, PduSuperclass.members, putAttr, Tree.optInt, Tree.intOr])) fun _ => ?_
  refine .bind .read fun _ => ?_
  refine .bind (.set' (fun o => by simp [RepairResponsePdu.members, LogisticsFamilyPdu.members, Pdu.members, PduSuperclass.members, attrOf]) (fun o => by simp [RepairResponsePdu.members, LogisticsFamilyPdu.members, Pdu.members, PduSuperclass.members, putAttr, Tree.optInt, Tree.intOr])) fun _ => ?_
  refine .bind .read fun _ => ?_
  refine .bind (.set' (fun o => by simp [RepairResponsePdu.members, LogisticsFamilyPdu.members, Pdu.members, PduSuperclass.members, attrOf]) (fun o => by simp [RepairResponsePdu.members, LogisticsFamilyPdu.members, Pdu.members, PduSuperclass.members, putAttr, Tree.optInt, Tree.intOr])) fun _ => ?_
  exact .pure

theorem RepairResponsePdu.shows : Shows RepairResponsePdu.members RepairResponsePdu.serialize RepairResponsePdu.serializeHeap := by
  unfold RepairResponsePdu.serialize RepairResponsePdu.serializeHeap
  refine .bind (.super LogisticsFamilyPdu.shows (fun _ => rfl)) ?_
  refine .bind (.call EntityIdentifier.shows (fun o => by simp [RepairResponsePdu.members, LogisticsFamilyPdu.members, Pdu.members, PduSuperclass.members, attrOf])) ?_
  refine .bind (.call EntityIdentifier.shows (fun o => by simp [RepairResponsePdu.members, LogisticsFamilyPdu.members, Pdu.members, PduSuperclass.members, attrOf])) ?_
  refine .bind (.putInt (fun o => by simp [RepairResponsePdu.members, LogisticsFamilyPdu.members, Pdu.members, PduSuperclass.members, attrOf])) ?_
  refine .bind (.putInt (fun o => by simp [RepairResponsePdu.members, LogisticsFamilyPdu.members, Pdu.members, PduSuperclass.members, attrOf])) ?_
  exact .putInt (fun o => by simp [RepairResponsePdu.members, LogisticsFamilyPdu.members, Pdu.members, PduSuperclass.members, attrOf])

theorem SimulationManagementFamilyPdu.inits (p pf : Int) (ex : List (String × Tree)) : Inits (fun self => SimulationManagementFamilyPdu.initHeap self)
      (([("protocolVersion", .sc .absent), ("exerciseID", .sc .absent), ("pduType", .sc (.int p)), ("protocolFamily", .sc (.int pf)), ("timestamp", .sc .absent), ("length", .sc .absent)] : List (String × Tree)) ++
      (([("pduStatus", .sc .absent), ("padding", .sc .absent)] : List (String × Tree)) ++
      (([("originatingEntityID", .sc .absent), ("receivingEntityID", .sc .absent)] : List (String × Tree)) ++ ex)))
      (SimulationManagementFamilyPdu.members { pduType := p, protocolFamily := pf } ++ ex) := by
  unfold SimulationManagementFamilyPdu.initHeap
  refine .bind (Pdu.inits p pf _) ?_
  refine .bind (.setOr' EntityIdentifier.makesNew (by simp [attrOf_putAttr_isSome, attrOf, SimulationManagementFamilyPdu.members, Pdu.members, PduSuperclass.members])) ?_
  exact .cast (.setOr' EntityIdentifier.makesNew (by simp [attrOf_putAttr_isSome, attrOf, SimulationManagementFamilyPdu.members, Pdu.members, PduSuperclass.members]))
    (by simp [putAttr, SimulationManagementFamilyPdu.members, Pdu.members, PduSuperclass.members, Tree.ints, Tree.objs, Tree.optInt, Tree.optObj, Tree.intOr])

theorem SimulationManagementFamilyPdu.refines : Refines SimulationManagementFamilyPdu.members SimulationManagementFamilyPdu.parseInto SimulationManagementFamilyPdu.parseHeap := by
  unfold SimulationManagementFamilyPdu.parseInto SimulationManagementFamilyPdu.parseHeap
  refine .bind (.super Pdu.refines (fun _ => rfl) (fun _ _ => rfl)) fun _ => ?_
  refine .bind (.call' EntityIdentifier.refines (fun o => by simp [SimulationManagementFamilyPdu.members, Pdu.members, PduSuperclass.members, attrOf]) (fun o v => by simp [SimulationManagementFamilyPdu.members, Pdu.members, PduSuperclass.members, putAttr, Tree.optInt, Tree.intOr])) fun _ => ?_
  refine .bind (.call' EntityIdentifier.refines (fun o => by simp [SimulationManagementFamilyPdu.members, Pdu.members, PduSuperclass.members, attrOf]) (fun o v => by simp [SimulationManagementFamilyPdu.members, Pdu.members, PduSuperclass.members, putAttr, Tree.optInt, Tree.intOr])) fun _ => ?_
  exact .pure

theorem SimulationManagementFamilyPdu.shows : Shows SimulationManagementFamilyPdu.members SimulationManagementFamilyPdu.serialize SimulationManagementFamilyPdu.serializeHeap := by
  unfold SimulationManagementFamilyPdu.serialize SimulationManagementFamilyPdu.serializeHeap
  refine .bind (.super Pdu.shows (fun _ => rfl)) ?_
  refine .bind (.call EntityIdentifier.shows (fun o => by simp [SimulationManagementFamilyPdu.members, Pdu.members, PduSuperclass.members, attrOf])) ?_
  exact .call EntityIdentifier.shows (fun o => by simp [SimulationManagementFamilyPdu.members, Pdu.members, PduSuperclass.members, attrOf])

theorem DataQueryPdu.inits (p pf : Int) (ex : List (String × Tree)) : Inits (fun self => DataQueryPdu.initHeap self)
      (([("protocolVersion", .sc .absent), ("exerciseID", .sc .absent), ("pduType", .sc (.int p)), ("protocolFamily", .sc (.int pf)), ("timestamp", .sc .absent), ("length", .sc .absent)] : List (String × Tree)) ++
      (([("pduStatus", .sc .absent), ("padding", .sc .absent)] : List (String × Tree)) ++
      (([("originatingEntityID", .sc .absent), ("receivingEntityID", .sc .absent)] : List (String × Tree)) ++
      (([("requestID", .sc .absent), ("timeInterval", .sc .absent), ("_dataQuery", .sc .absent)] : List (String × Tree)) ++ ex))))
      (DataQueryPdu.members { pduType := p, protocolFamily := pf } ++ ex) := by
  unfold DataQueryPdu.initHeap
  refine .bind (SimulationManagementFamilyPdu.inits p pf _) ?_
  refine .bind (.set' (by simp [attrOf_putAttr_isSome, attrOf, DataQueryPdu.members, SimulationManagementFamilyPdu.members, Pdu.members, PduSuperclass.members])) ?_
  refine .bind (.set' (by simp [attrOf_putAttr_isSome, attrOf, DataQueryPdu.members, SimulationManagementFamilyPdu.members, Pdu.members, PduSuperclass.members])) ?_
  exact .cast (.setNew' DataQueryDatumSpecification.makesNew' (by simp [attrOf_putAttr_isSome, attrOf, DataQueryPdu.members, SimulationManagementFamilyPdu.members, Pdu.members, PduSuperclass.members]))
    (by simp [putAttr, DataQueryPdu.members, SimulationManagementFamilyPdu.members, Pdu.members, PduSuperclass.members, Tree.ints, Tree.objs, Tree.optInt, Tree.optObj, Tree.intOr])

theorem DataQueryPdu.makesNew : MakesNew DataQueryPdu.newHeap (.obj (DataQueryPdu.members DataQueryPdu.init)) :=
  .new (.cast (DataQueryPdu.inits 18 5 []) (List.append_nil _))

theorem DataQueryPdu.refines : Refines DataQueryPdu.members DataQueryPdu.parseInto DataQueryPdu.parseHeap := by
  unfold DataQueryPdu.parseInto DataQueryPdu.parseHeap
  refine .bind (.super SimulationManagementFamilyPdu.refines (fun _ => rfl) (fun _ _ => rfl)) fun _ => ?_
  refine .bind .read fun _ => ?_
  refine .bind (.set' (fun o => by simp [DataQueryPdu.members, SimulationManagementFamilyPdu.members, Pdu.members, PduSuperclass.members, attrOf]) (fun o => by simp [DataQueryPdu.members, SimulationManagementFamilyPdu.members, Pdu.members, PduSuperclass.members, putAttr, Tree.optInt, Tree.intOr])) fun _ => ?_
  refine .bind .read fun _ => ?_
  refine .bind (.set' (fun o => by simp [DataQueryPdu.members, SimulationManagementFamilyPdu.members, Pdu.members, PduSuperclass.members, attrOf]) (fun o => by simp [DataQueryPdu.members, SimulationManagementFamilyPdu.members, Pdu.members, PduSuperclass.members, putAttr, Tree.optInt, Tree.intOr])) fun _ => ?_
  refine .bind (.call' DataQueryDatumSpecification.refines (fun o => by simp [DataQueryPdu.members, SimulationManagementFamilyPdu.members, Pdu.members, PduSuperclass.members, attrOf]) (fun o v => by simp [DataQueryPdu.members, SimulationManagementFamilyPdu.members, Pdu.members, PduSuperclass.members, putAttr, Tree.optInt, Tree.intOr])) fun _ => ?_
  exact .pure

theorem DataQueryPdu.shows : Shows DataQueryPdu.members DataQueryPdu.serialize DataQueryPdu.serializeHeap := by
  unfold DataQueryPdu.serialize DataQueryPdu.serializeHeap
  refine .bind (.super SimulationManagementFamilyPdu.shows (fun _ => rfl)) ?_
  refine .bind (.putInt (fun o => by simp [DataQueryPdu.members, SimulationManagementFamilyPdu.members, Pdu.members, PduSuperclass.members, attrOf])) ?_
  refine .bind (.putInt (fun o => by simp [DataQueryPdu.members, SimulationManagementFamilyPdu.members, Pdu.members, PduSuperclass.members, attrOf])) ?_
  exact .call DataQueryDatumSpecification.shows (fun o => by simp [DataQueryPdu.members, SimulationManagementFamilyPdu.members, Pdu.members, PduSuperclass.members, attrOf])

theorem LinearObjectStatePdu.refines : Refines LinearObjectStatePdu.members LinearObjectStatePdu.parseInto LinearObjectStatePdu.parseHeap := by
  unfold LinearObjectStatePdu.parseInto LinearObjectStatePdu.parseHeap
  refine .bind (.super SyntheticEnvironmentFamilyPdu.refines (fun _ => rfl) (fun _ _ => rfl)) fun _ => ?_
  refine .bind (.call' EntityIdentifier.refines (fun o => by simp [LinearObjectStatePdu.members, SyntheticEnvironmentFamilyPdu.members, Pdu.members, PduSuperclass.members, attrOf]) (fun o v => by simp [LinearObjectStatePdu.members, SyntheticEnvironmentFamilyPdu.members, Pdu.members, PduSuperclass.members, putAttr, Tree.optInt, Tree.intOr])) fun _ => ?_
  refine .bind (.call' EntityIdentifier.refines (fun o => by simp [LinearObjectStatePdu.members, SyntheticEnvironmentFamilyPdu.members, Pdu.members, PduSuperclass.members, attrOf]) (fun o v => by simp [LinearObjectStatePdu.members, SyntheticEnvironmentFamilyPdu.members, Pdu.members, PduSuperclass.members, putAttr, Tree.optInt, Tree.intOr])) fun _ => ?_
  refine .bind .read fun _ => ?_
  refine .bind (.set' (fun o => by simp [LinearObjectStatePdu.members, SyntheticEnvironmentFamilyPdu.members, Pdu.members, PduSuperclass.members, attrOf]) (fun o => by simp [LinearObjectStatePdu.members, SyntheticEnvironmentFamilyPdu.members, Pdu.members, PduSuperclass.members, putAttr, Tree.optInt, Tree.intOr])) fun _ => ?_
  refine .bind .read fun _ => ?_
  refine .bind (.set' (fun o => by simp [LinearObjectStatePdu.members, SyntheticEnvironmentFamilyPdu.members, Pdu.members, PduSuperclass.members, attrOf]) (fun o => by simp [LinearObjectStatePdu.members, SyntheticEnvironmentFamilyPdu.members, Pdu.members, PduSuperclass.members, putAttr, Tree.optInt, Tree.intOr])) fun _ => ?_
  refine .bind .read fun _ => ?_
  refine .bind (.call' SimulationAddress.refines (fun o => by simp [LinearObjectStatePdu.members, SyntheticEnvironmentFamilyPdu.members, Pdu.members, PduSuperclass.members, attrOf]) (fun o v => by simp [LinearObjectStatePdu.members, SyntheticEnvironmentFamilyPdu.members, Pdu.members, PduSuperclass.members, putAttr, Tree.optInt, Tree.intOr])) fun _ => ?_
  refine .bind (.call' SimulationAddress.refines (fun o => by simp [LinearObjectStatePdu.members, SyntheticEnvironmentFamilyPdu.members, Pdu.members, PduSuperclass.members, attrOf]) (fun o v => by simp [LinearObjectStatePdu.members, SyntheticEnvironmentFamilyPdu.members, Pdu.members, PduSuperclass.members, putAttr, Tree.optInt, Tree.intOr])) fun _ => ?_
  refine .bind (.call' ObjectType.refines (fun o => by simp [LinearObjectStatePdu.members, SyntheticEnvironmentFamilyPdu.members, Pdu.members, PduSuperclass.members, attrOf]) (fun o v => by simp [LinearObjectStatePdu.members, SyntheticEnvironmentFamilyPdu.members, Pdu.members, PduSuperclass.members, putAttr, Tree.optInt, Tree.intOr])) fun _ => ?_
  refine .bind (.objs LinearSegmentParameter.makesNew LinearSegmentParameter.refines (fun o => by simp [LinearObjectStatePdu.members, SyntheticEnvironmentFamilyPdu.members, Pdu.members, PduSuperclass.members, attrOf]) (fun o v => by simp [LinearObjectStatePdu.members, SyntheticEnvironmentFamilyPdu.members, Pdu.members, PduSuperclass.members, putAttr, Tree.optInt, Tree.intOr])) fun _ => ?_
  exact .pure

theorem LinearObjectStatePdu.shows : Shows LinearObjectStatePdu.members LinearObjectStatePdu.serialize LinearObjectStatePdu.serializeHeap := by
  unfold LinearObjectStatePdu.serialize LinearObjectStatePdu.serializeHeap
  refine .bind (.super SyntheticEnvironmentFamilyPdu.shows (fun _ => rfl)) ?_
  refine .bind (.call EntityIdentifier.shows (fun o => by simp [LinearObjectStatePdu.members, SyntheticEnvironmentFamilyPdu.members, Pdu.members, PduSuperclass.members, attrOf])) ?_
  refine .bind (.call EntityIdentifier.shows (fun o => by simp [LinearObjectStatePdu.members, SyntheticEnvironmentFamilyPdu.members, Pdu.members, PduSuperclass.members, attrOf])) ?_
  refine .bind (.putInt (fun o => by simp [LinearObjectStatePdu.members, SyntheticEnvironmentFamilyPdu.members, Pdu.members, PduSuperclass.members, attrOf])) ?_
  refine .bind (.putInt (fun o => by simp [LinearObjectStatePdu.members, SyntheticEnvironmentFamilyPdu.members, Pdu.members, PduSuperclass.members, attrOf])) ?_
  refine .bind (.lenObjs (ts := LinearSegmentParameter.members) (fun o => by simp [LinearObjectStatePdu.members, SyntheticEnvironmentFamilyPdu.members, Pdu.members, PduSuperclass.members, attrOf])) ?_
  refine .bind (.call SimulationAddress.shows (fun o => by simp [LinearObjectStatePdu.members, SyntheticEnvironmentFamilyPdu.members, Pdu.members, PduSuperclass.members, attrOf])) ?_
  refine .bind (.call SimulationAddress.shows (fun o => by simp [LinearObjectStatePdu.members, SyntheticEnvironmentFamilyPdu.members, Pdu.members, PduSuperclass.members, attrOf])) ?_
  refine .bind (.call ObjectType.shows (fun o => by simp [LinearObjectStatePdu.members, SyntheticEnvironmentFamilyPdu.members, Pdu.members, PduSuperclass.members, attrOf])) ?_
  exact .eachObj LinearSegmentParameter.shows (fun o => by simp [LinearObjectStatePdu.members, SyntheticEnvironmentFamilyPdu.members, Pdu.members, PduSuperclass.members, attrOf])

end Dis
