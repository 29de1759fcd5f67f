import Verif.Proof.HeapRules
import Verif.Model.Heap1
import Verif.Spec.HeapFields
import Verif.Model.InPlace4

/-!
# Methods on a memory of objects, part 1

Generated by `tools/genheap.py`.
-/

set_option linter.unusedVariables false
set_option linter.unusedSimpArgs false

namespace Dis

theorem SimulationAddress.inits (ex : List (String × Tree)) : Inits (fun self => SimulationAddress.initHeap self)
      (([("site", .sc .absent), ("application", .sc .absent)] : List (String × Tree)) ++ ex)
      (SimulationAddress.members {} ++ ex) := by
  unfold SimulationAddress.initHeap
  refine .bind (.set' (by simp [attrOf_putAttr_isSome, attrOf, SimulationAddress.members])) ?_
  exact .cast (.set' (by simp [attrOf_putAttr_isSome, attrOf, SimulationAddress.members]))
    (by simp [putAttr, SimulationAddress.members, Tree.ints, Tree.objs, Tree.optInt, Tree.optObj, Tree.intOr])

theorem SimulationAddress.makesNew : MakesNew SimulationAddress.newHeap (.obj (SimulationAddress.members SimulationAddress.init)) :=
  .new (.cast (SimulationAddress.inits []) (List.append_nil _))

theorem SimulationAddress.refines : Refines SimulationAddress.members SimulationAddress.parseInto SimulationAddress.parseHeap := by
  unfold SimulationAddress.parseInto SimulationAddress.parseHeap
  refine .bind .read fun _ => ?_
  refine .bind (.set' (fun o => by simp [SimulationAddress.members, attrOf]) (fun o => by simp [SimulationAddress.members, putAttr, Tree.optInt, Tree.intOr])) fun _ => ?_
  refine .bind .read fun _ => ?_
  refine .bind (.set' (fun o => by simp [SimulationAddress.members, attrOf]) (fun o => by simp [SimulationAddress.members, putAttr, Tree.optInt, Tree.intOr])) fun _ => ?_
  exact .pure

theorem SimulationAddress.shows : Shows SimulationAddress.members SimulationAddress.serialize SimulationAddress.serializeHeap := by
  unfold SimulationAddress.serialize SimulationAddress.serializeHeap
  refine .bind (.putInt (fun o => by simp [SimulationAddress.members, attrOf])) ?_
  exact .putInt (fun o => by simp [SimulationAddress.members, attrOf])

theorem EntityIdentifier.inits (ex : List (String × Tree)) : Inits (fun self => EntityIdentifier.initHeap self)
      (([("simulationAddress", .sc .absent), ("entityNumber", .sc .absent)] : List (String × Tree)) ++ ex)
      (EntityIdentifier.members {} ++ ex) := by
  unfold EntityIdentifier.initHeap
  refine .bind (.setOr' SimulationAddress.makesNew (by simp [attrOf_putAttr_isSome, attrOf, EntityIdentifier.members])) ?_
  exact .cast (.set' (by simp [attrOf_putAttr_isSome, attrOf, EntityIdentifier.members]))
    (by simp [putAttr, EntityIdentifier.members, Tree.ints, Tree.objs, Tree.optInt, Tree.optObj, Tree.intOr])

theorem EntityIdentifier.makesNew : MakesNew EntityIdentifier.newHeap (.obj (EntityIdentifier.members EntityIdentifier.init)) :=
  .new (.cast (EntityIdentifier.inits []) (List.append_nil _))

theorem EntityIdentifier.refines : Refines EntityIdentifier.members EntityIdentifier.parseInto EntityIdentifier.parseHeap := by
  unfold EntityIdentifier.parseInto EntityIdentifier.parseHeap
  refine .bind (.call' SimulationAddress.refines (fun o => by simp [EntityIdentifier.members, attrOf]) (fun o v => by simp [EntityIdentifier.members, putAttr, Tree.optInt, Tree.intOr])) fun _ => ?_
  refine .bind .read fun _ => ?_
  refine .bind (.set' (fun o => by simp [EntityIdentifier.members, attrOf]) (fun o => by simp [EntityIdentifier.members, putAttr, Tree.optInt, Tree.intOr])) fun _ => ?_
  exact .pure

theorem EntityIdentifier.shows : Shows EntityIdentifier.members EntityIdentifier.serialize EntityIdentifier.serializeHeap := by
  unfold EntityIdentifier.serialize EntityIdentifier.serializeHeap
  refine .bind (.call SimulationAddress.shows (fun o => by simp [EntityIdentifier.members, attrOf])) ?_
  exact .putInt (fun o => by simp [EntityIdentifier.members, attrOf])

theorem EulerAngles.inits (ex : List (String × Tree)) : Inits (fun self => EulerAngles.initHeap self)
      (([("psi", .sc .absent), ("theta", .sc .absent), ("phi", .sc .absent)] : List (String × Tree)) ++ ex)
      (EulerAngles.members {} ++ ex) := by
  unfold EulerAngles.initHeap
  refine .bind (.set' (by simp [attrOf_putAttr_isSome, attrOf, EulerAngles.members])) ?_
  refine .bind (.set' (by simp [attrOf_putAttr_isSome, attrOf, EulerAngles.members])) ?_
  exact .cast (.set' (by simp [attrOf_putAttr_isSome, attrOf, EulerAngles.members]))
    (by simp [putAttr, EulerAngles.members, Tree.ints, Tree.objs, Tree.optInt, Tree.optObj, Tree.intOr])

theorem EulerAngles.makesNew : MakesNew EulerAngles.newHeap (.obj (EulerAngles.members EulerAngles.init)) :=
  .new (.cast (EulerAngles.inits []) (List.append_nil _))

theorem EulerAngles.refines : Refines EulerAngles.members EulerAngles.parseInto EulerAngles.parseHeap := by
  unfold EulerAngles.parseInto EulerAngles.parseHeap
  refine .bind .read fun _ => ?_
  refine .bind (.set' (fun o => by simp [EulerAngles.members, attrOf]) (fun o => by simp [EulerAngles.members, putAttr, Tree.optInt, Tree.intOr])) fun _ => ?_
  refine .bind .read fun _ => ?_
  refine .bind (.set' (fun o => by simp [EulerAngles.members, attrOf]) (fun o => by simp [EulerAngles.members, putAttr, Tree.optInt, Tree.intOr])) fun _ => ?_
  refine .bind .read fun _ => ?_
  refine .bind (.set' (fun o => by simp [EulerAngles.members, attrOf]) (fun o => by simp [EulerAngles.members, putAttr, Tree.optInt, Tree.intOr])) fun _ => ?_
  exact .pure

theorem EulerAngles.shows : Shows EulerAngles.members EulerAngles.serialize EulerAngles.serializeHeap := by
  unfold EulerAngles.serialize EulerAngles.serializeHeap
  refine .bind (.putFloat (fun o => by simp [EulerAngles.members, attrOf])) ?_
  refine .bind (.putFloat (fun o => by simp [EulerAngles.members, attrOf])) ?_
  exact .putFloat (fun o => by simp [EulerAngles.members, attrOf])

theorem EventIdentifier.inits (ex : List (String × Tree)) : Inits (fun self => EventIdentifier.initHeap self)
      (([("simulationAddress", .sc .absent), ("eventNumber", .sc .absent)] : List (String × Tree)) ++ ex)
      (EventIdentifier.members {} ++ ex) := by
  unfold EventIdentifier.initHeap
  refine .bind (.setOr' SimulationAddress.makesNew (by simp [attrOf_putAttr_isSome, attrOf, EventIdentifier.members])) ?_
  exact .cast (.set' (by simp [attrOf_putAttr_isSome, attrOf, EventIdentifier.members]))
    (by simp [putAttr, EventIdentifier.members, Tree.ints, Tree.objs, Tree.optInt, Tree.optObj, Tree.intOr])

theorem EventIdentifier.makesNew : MakesNew EventIdentifier.newHeap (.obj (EventIdentifier.members EventIdentifier.init)) :=
  .new (.cast (EventIdentifier.inits []) (List.append_nil _))

theorem EventIdentifier.refines : Refines EventIdentifier.members EventIdentifier.parseInto EventIdentifier.parseHeap := by
  unfold EventIdentifier.parseInto EventIdentifier.parseHeap
  refine .bind (.call' SimulationAddress.refines (fun o => by simp [EventIdentifier.members, attrOf]) (fun o v => by simp [EventIdentifier.members, putAttr, Tree.optInt, Tree.intOr])) fun _ => ?_
  refine .bind .read fun _ => ?_
  refine .bind (.set' (fun o => by simp [EventIdentifier.members, attrOf]) (fun o => by simp [EventIdentifier.members, putAttr, Tree.optInt, Tree.intOr])) fun _ => ?_
  exact .pure

theorem EventIdentifier.shows : Shows EventIdentifier.members EventIdentifier.serialize EventIdentifier.serializeHeap := by
  unfold EventIdentifier.serialize EventIdentifier.serializeHeap
  refine .bind (.call SimulationAddress.shows (fun o => by simp [EventIdentifier.members, attrOf])) ?_
  exact .putInt (fun o => by simp [EventIdentifier.members, attrOf])

theorem Vector3Float.inits (ex : List (String × Tree)) : Inits (fun self => Vector3Float.initHeap self)
      (([("x", .sc .absent), ("y", .sc .absent), ("z", .sc .absent)] : List (String × Tree)) ++ ex)
      (Vector3Float.members {} ++ ex) := by
  unfold Vector3Float.initHeap
  refine .bind (.set' (by simp [attrOf_putAttr_isSome, attrOf, Vector3Float.members])) ?_
  refine .bind (.set' (by simp [attrOf_putAttr_isSome, attrOf, Vector3Float.members])) ?_
  exact .cast (.set' (by simp [attrOf_putAttr_isSome, attrOf, Vector3Float.members]))
    (by simp [putAttr, Vector3Float.members, Tree.ints, Tree.objs, Tree.optInt, Tree.optObj, Tree.intOr])

theorem Vector3Float.makesNew : MakesNew Vector3Float.newHeap (.obj (Vector3Float.members Vector3Float.init)) :=
  .new (.cast (Vector3Float.inits []) (List.append_nil _))

theorem Vector3Float.refines : Refines Vector3Float.members Vector3Float.parseInto Vector3Float.parseHeap := by
  unfold Vector3Float.parseInto Vector3Float.parseHeap
  refine .bind .read fun _ => ?_
  refine .bind (.set' (fun o => by simp [Vector3Float.members, attrOf]) (fun o => by simp [Vector3Float.members, putAttr, Tree.optInt, Tree.intOr])) fun _ => ?_
  refine .bind .read fun _ => ?_
  refine .bind (.set' (fun o => by simp [Vector3Float.members, attrOf]) (fun o => by simp [Vector3Float.members, putAttr, Tree.optInt, Tree.intOr])) fun _ => ?_
  refine .bind .read fun _ => ?_
  refine .bind (.set' (fun o => by simp [Vector3Float.members, attrOf]) (fun o => by simp [Vector3Float.members, putAttr, Tree.optInt, Tree.intOr])) fun _ => ?_
  exact .pure

theorem Vector3Float.shows : Shows Vector3Float.members Vector3Float.serialize Vector3Float.serializeHeap := by
  unfold Vector3Float.serialize Vector3Float.serializeHeap
  refine .bind (.putFloat (fun o => by simp [Vector3Float.members, attrOf])) ?_
  refine .bind (.putFloat (fun o => by simp [Vector3Float.members, attrOf])) ?_
  exact .putFloat (fun o => by simp [Vector3Float.members, attrOf])

theorem WorldCoordinates.inits (ex : List (String × Tree)) : Inits (fun self => WorldCoordinates.initHeap self)
      (([("x", .sc .absent), ("y", .sc .absent), ("z", .sc .absent)] : List (String × Tree)) ++ ex)
      (WorldCoordinates.members {} ++ ex) := by
  unfold WorldCoordinates.initHeap
  refine .bind (.set' (by simp [attrOf_putAttr_isSome, attrOf, WorldCoordinates.members])) ?_
  refine .bind (.set' (by simp [attrOf_putAttr_isSome, attrOf, WorldCoordinates.members])) ?_
  exact .cast (.set' (by simp [attrOf_putAttr_isSome, attrOf, WorldCoordinates.members]))
    (by simp [putAttr, WorldCoordinates.members, Tree.ints, Tree.objs, Tree.optInt, Tree.optObj, Tree.intOr])

theorem WorldCoordinates.makesNew : MakesNew WorldCoordinates.newHeap (.obj (WorldCoordinates.members WorldCoordinates.init)) :=
  .new (.cast (WorldCoordinates.inits []) (List.append_nil _))

theorem WorldCoordinates.refines : Refines WorldCoordinates.members WorldCoordinates.parseInto WorldCoordinates.parseHeap := by
  unfold WorldCoordinates.parseInto WorldCoordinates.parseHeap
  refine .bind .read fun _ => ?_
  refine .bind (.set' (fun o => by simp [WorldCoordinates.members, attrOf]) (fun o => by simp [WorldCoordinates.members, putAttr, Tree.optInt, Tree.intOr])) fun _ => ?_
  refine .bind .read fun _ => ?_
  refine .bind (.set' (fun o => by simp [WorldCoordinates.members, attrOf]) (fun o => by simp [WorldCoordinates.members, putAttr, Tree.optInt, Tree.intOr])) fun _ => ?_
  refine .bind .read fun _ => ?_
  refine .bind (.set' (fun o => by simp [WorldCoordinates.members, attrOf]) (fun o => by simp [WorldCoordinates.members, putAttr, Tree.optInt, Tree.intOr])) fun _ => ?_
  exact .pure

theorem WorldCoordinates.shows : Shows WorldCoordinates.members WorldCoordinates.serialize WorldCoordinates.serializeHeap := by
  unfold WorldCoordinates.serialize WorldCoordinates.serializeHeap
  refine .bind (.putFloat (fun o => by simp [WorldCoordinates.members, attrOf])) ?_
  refine .bind (.putFloat (fun o => by simp [WorldCoordinates.members, attrOf])) ?_
  exact .putFloat (fun o => by simp [WorldCoordinates.members, attrOf])

theorem DataQueryDatumSpecification.inits (ex : List (String × Tree)) : Inits (fun self => DataQueryDatumSpecification.initHeap self)
      (([("fixedDatumIDs", .sc .absent), ("variableDatumIDs", .sc .absent)] : List (String × Tree)) ++ ex)
      (DataQueryDatumSpecification.members {} ++ ex) := by
  unfold DataQueryDatumSpecification.initHeap
  refine .bind (.setOr' .empty (by simp [attrOf_putAttr_isSome, attrOf, DataQueryDatumSpecification.members])) ?_
  exact .cast (.setOr' .empty (by simp [attrOf_putAttr_isSome, attrOf, DataQueryDatumSpecification.members]))
    (by simp [putAttr, DataQueryDatumSpecification.members, Tree.ints, Tree.objs, Tree.optInt, Tree.optObj, Tree.intOr])

theorem DataQueryDatumSpecification.makesNew : MakesNew DataQueryDatumSpecification.newHeap (.obj (DataQueryDatumSpecification.members DataQueryDatumSpecification.init)) :=
  .new (.cast (DataQueryDatumSpecification.inits []) (List.append_nil _))

theorem DataQueryDatumSpecification.refines : Refines DataQueryDatumSpecification.members DataQueryDatumSpecification.parseInto DataQueryDatumSpecification.parseHeap := by
  unfold DataQueryDatumSpecification.parseInto DataQueryDatumSpecification.parseHeap
  refine .bind .read fun _ => ?_
  refine .bind .read fun _ => ?_
  refine .bind (.reads (fun o => by simp [DataQueryDatumSpecification.members, attrOf]) (fun o v => by simp [DataQueryDatumSpecification.members, putAttr, Tree.optInt, Tree.intOr])) fun _ => ?_
  refine .bind (.reads (fun o => by simp [DataQueryDatumSpecification.members, attrOf]) (fun o v => by simp [DataQueryDatumSpecification.members, putAttr, Tree.optInt, Tree.intOr])) fun _ => ?_
  exact .pure

theorem DataQueryDatumSpecification.shows : Shows DataQueryDatumSpecification.members DataQueryDatumSpecification.serialize DataQueryDatumSpecification.serializeHeap := by
  unfold DataQueryDatumSpecification.serialize DataQueryDatumSpecification.serializeHeap
  refine .bind (.lenInts (fun o => by simp [DataQueryDatumSpecification.members, attrOf])) ?_
  refine .bind (.lenInts (fun o => by simp [DataQueryDatumSpecification.members, attrOf])) ?_
  refine .bind (.eachInts (fun o => by simp [DataQueryDatumSpecification.members, attrOf])) ?_
  exact .eachInts (fun o => by simp [DataQueryDatumSpecification.members, attrOf])

theorem DataQueryDatumSpecification.makesNew' : MakesNew (do
      let a ← H.orNew (.sc .none) (H.alloc (.list []))
      let b ← H.orNew (.sc .none) (H.alloc (.list []))
      DataQueryDatumSpecification.newHeap a b) (.obj (DataQueryDatumSpecification.members DataQueryDatumSpecification.init)) :=
  MakesNew.twoLists (by decide)

theorem RadioIdentifier.inits (ex : List (String × Tree)) : Inits (fun self => RadioIdentifier.initHeap self)
      (([("siteNumber", .sc .absent), ("applicationNumber", .sc .absent), ("referenceNumber", .sc .absent), ("radioNumber", .sc .absent)] : List (String × Tree)) ++ ex)
      (RadioIdentifier.members {} ++ ex) := by
  unfold RadioIdentifier.initHeap
  refine .bind (.set' (by simp [attrOf_putAttr_isSome, attrOf, RadioIdentifier.members])) ?_
  refine .bind (.set' (by simp [attrOf_putAttr_isSome, attrOf, RadioIdentifier.members])) ?_
  refine .bind (.set' (by simp [attrOf_putAttr_isSome, attrOf, RadioIdentifier.members])) ?_
  exact .cast (.set' (by simp [attrOf_putAttr_isSome, attrOf, RadioIdentifier.members]))
    (by simp [putAttr, RadioIdentifier.members, Tree.ints, Tree.objs, Tree.optInt, Tree.optObj, Tree.intOr])

theorem RadioIdentifier.makesNew : MakesNew RadioIdentifier.newHeap (.obj (RadioIdentifier.members RadioIdentifier.init)) :=
  .new (.cast (RadioIdentifier.inits []) (List.append_nil _))

theorem RadioIdentifier.refines : Refines RadioIdentifier.members RadioIdentifier.parseInto RadioIdentifier.parseHeap := by
  unfold RadioIdentifier.parseInto RadioIdentifier.parseHeap
  refine .bind .read fun _ => ?_
  refine .bind (.set' (fun o => by simp [RadioIdentifier.members, attrOf]) (fun o => by simp [RadioIdentifier.members, putAttr, Tree.optInt, Tree.intOr])) fun _ => ?_
  refine .bind .read fun _ => ?_
  refine .bind (.set' (fun o => by simp [RadioIdentifier.members, attrOf]) (fun o => by simp [RadioIdentifier.members, putAttr, Tree.optInt, Tree.intOr])) fun _ => ?_
  refine .bind .read fun _ => ?_
  refine .bind (.set' (fun o => by simp [RadioIdentifier.members, attrOf]) (fun o => by simp [RadioIdentifier.members, putAttr, Tree.optInt, Tree.intOr])) fun _ => ?_
  refine .bind .read fun _ => ?_
  refine .bind (.set' (fun o => by simp [RadioIdentifier.members, attrOf]) (fun o => by simp [RadioIdentifier.members, putAttr, Tree.optInt, Tree.intOr])) fun _ => ?_
  exact .pure

theorem RadioIdentifier.shows : Shows RadioIdentifier.members RadioIdentifier.serialize RadioIdentifier.serializeHeap := by
  unfold RadioIdentifier.serialize RadioIdentifier.serializeHeap
  refine .bind (.putInt (fun o => by simp [RadioIdentifier.members, attrOf])) ?_
  refine .bind (.putInt (fun o => by simp [RadioIdentifier.members, attrOf])) ?_
  refine .bind (.putInt (fun o => by simp [RadioIdentifier.members, attrOf])) ?_
  exact .putInt (fun o => by simp [RadioIdentifier.members, attrOf])

theorem RequestID.inits (ex : List (String × Tree)) : Inits (fun self => RequestID.initHeap self)
      (([("requestID", .sc .absent)] : List (String × Tree)) ++ ex)
      (RequestID.members {} ++ ex) := by
  unfold RequestID.initHeap
  exact .cast (.set' (by simp [attrOf_putAttr_isSome, attrOf, RequestID.members]))
    (by simp [putAttr, RequestID.members, Tree.ints, Tree.objs, Tree.optInt, Tree.optObj, Tree.intOr])

theorem RequestID.makesNew : MakesNew RequestID.newHeap (.obj (RequestID.members RequestID.init)) :=
  .new (.cast (RequestID.inits []) (List.append_nil _))

theorem RequestID.refines : Refines RequestID.members RequestID.parseInto RequestID.parseHeap := by
  unfold RequestID.parseInto RequestID.parseHeap
  refine .bind .read fun _ => ?_
  refine .bind (.set' (fun o => by simp [RequestID.members, attrOf]) (fun o => by simp [RequestID.members, putAttr, Tree.optInt, Tree.intOr])) fun _ => ?_
  exact .pure

theorem RequestID.shows : Shows RequestID.members RequestID.serialize RequestID.serializeHeap := by
  unfold RequestID.serialize RequestID.serializeHeap
  exact .putInt (fun o => by simp [RequestID.members, attrOf])

theorem IFFData.inits (ex : List (String × Tree)) : Inits (fun self => IFFData.initHeap self)
      (([("recordType", .sc .absent), ("recordLength", .sc .absent), ("iffData", .sc .absent)] : List (String × Tree)) ++ ex)
      (IFFData.members {} ++ ex) := by
  unfold IFFData.initHeap
  refine .bind (.set' (by simp [attrOf_putAttr_isSome, attrOf, IFFData.members])) ?_
  refine .bind (.set' (by simp [attrOf_putAttr_isSome, attrOf, IFFData.members])) ?_
  exact .cast (.setOr' .empty (by simp [attrOf_putAttr_isSome, attrOf, IFFData.members]))
    (by simp [putAttr, IFFData.members, Tree.ints, Tree.objs, Tree.optInt, Tree.optObj, Tree.intOr])

theorem IFFData.makesNew : MakesNew IFFData.newHeap (.obj (IFFData.members IFFData.init)) :=
  .new (.cast (IFFData.inits []) (List.append_nil _))

theorem IFFData.refines : Refines IFFData.members IFFData.parseInto IFFData.parseHeap := by
  unfold IFFData.parseInto IFFData.parseHeap
  refine .bind .read fun _ => ?_
  refine .bind (.set' (fun o => by simp [IFFData.members, attrOf]) (fun o => by simp [IFFData.members, putAttr, Tree.optInt, Tree.intOr])) fun _ => ?_
  refine .bind .read fun _ => ?_
  refine .bind (.set' (fun o => by simp [IFFData.members, attrOf]) (fun o => by simp [IFFData.members, putAttr, Tree.optInt, Tree.intOr])) fun _ => ?_
  refine .bind (.reads (fun o => by simp [IFFData.members, attrOf]) (fun o v => by simp [IFFData.members, putAttr, Tree.optInt, Tree.intOr])) fun _ => ?_
  exact .pure

theorem IFFData.shows : Shows IFFData.members IFFData.serialize IFFData.serializeHeap := by
  unfold IFFData.serialize IFFData.serializeHeap
  refine .bind (.putInt (fun o => by simp [IFFData.members, attrOf])) ?_
  refine .bind (.lenInts (fun o => by simp [IFFData.members, attrOf])) ?_
  exact .eachInts (fun o => by simp [IFFData.members, attrOf])

theorem EntityType.inits (ex : List (String × Tree)) : Inits (fun self => EntityType.initHeap self)
      (([("entityKind", .sc .absent), ("domain", .sc .absent), ("country", .sc .absent), ("category", .sc .absent), ("subcategory", .sc .absent), ("specific", .sc .absent), ("extra", .sc .absent)] : List (String × Tree)) ++ ex)
      (EntityType.members {} ++ ex) := by
  unfold EntityType.initHeap
  refine .bind (.set' (by simp [attrOf_putAttr_isSome, attrOf, EntityType.members])) ?_
  refine .bind (.set' (by simp [attrOf_putAttr_isSome, attrOf, EntityType.members])) ?_
  refine .bind (.set' (by simp [attrOf_putAttr_isSome, attrOf, EntityType.members])) ?_
  refine .bind (.set' (by simp [attrOf_putAttr_isSome, attrOf, EntityType.members])) ?_
  refine .bind (.set' (by simp [attrOf_putAttr_isSome, attrOf, EntityType.members])) ?_
  refine .bind (.set' (by simp [attrOf_putAttr_isSome, attrOf, EntityType.members])) ?_
  exact .cast (.set' (by simp [attrOf_putAttr_isSome, attrOf, EntityType.members]))
    (by simp [putAttr, EntityType.members, Tree.ints, Tree.objs, Tree.optInt, Tree.optObj, Tree.intOr])

theorem EntityType.makesNew : MakesNew EntityType.newHeap (.obj (EntityType.members EntityType.init)) :=
  .new (.cast (EntityType.inits []) (List.append_nil _))

theorem EntityType.refines : Refines EntityType.members EntityType.parseInto EntityType.parseHeap := by
  unfold EntityType.parseInto EntityType.parseHeap
  refine .bind .read fun _ => ?_
  refine .bind (.set' (fun o => by simp [EntityType.members, attrOf]) (fun o => by simp [EntityType.members, putAttr, Tree.optInt, Tree.intOr])) fun _ => ?_
  refine .bind .read fun _ => ?_
  refine .bind (.set' (fun o => by simp [EntityType.members, attrOf]) (fun o => by simp [EntityType.members, putAttr, Tree.optInt, Tree.intOr])) fun _ => ?_
  refine .bind .read fun _ => ?_
  refine .bind (.set' (fun o => by simp [EntityType.members, attrOf]) (fun o => by simp [EntityType.members, putAttr, Tree.optInt, Tree.intOr])) fun _ => ?_
  refine .bind .read fun _ => ?_
  refine .bind (.set' (fun o => by simp [EntityType.members, attrOf]) (fun o => by simp [EntityType.members, putAttr, Tree.optInt, Tree.intOr])) fun _ => ?_
  refine .bind .read fun _ => ?_
  refine .bind (.set' (fun o => by simp [EntityType.members, attrOf]) (fun o => by simp [EntityType.members, putAttr, Tree.optInt, Tree.intOr])) fun _ => ?_
  refine .bind .read fun _ => ?_
  refine .bind (.set' (fun o => by simp [EntityType.members, attrOf]) (fun o => by simp [EntityType.members, putAttr, Tree.optInt, Tree.intOr])) fun _ => ?_
  refine .bind .read fun _ => ?_
  refine .bind (.set' (fun o => by simp [EntityType.members, attrOf]) (fun o => by simp [EntityType.members, putAttr, Tree.optInt, Tree.intOr])) fun _ => ?_
  exact .pure

theorem EntityType.shows : Shows EntityType.members EntityType.serialize EntityType.serializeHeap := by
  unfold EntityType.serialize EntityType.serializeHeap
  refine .bind (.putInt (fun o => by simp [EntityType.members, attrOf])) ?_
  refine .bind (.putInt (fun o => by simp [EntityType.members, attrOf])) ?_
  refine .bind (.putInt (fun o => by simp [EntityType.members, attrOf])) ?_
  refine .bind (.putInt (fun o => by simp [EntityType.members, attrOf])) ?_
  refine .bind (.putInt (fun o => by simp [EntityType.members, attrOf])) ?_
  refine .bind (.putInt (fun o => by simp [EntityType.members, attrOf])) ?_
  exact .putInt (fun o => by simp [EntityType.members, attrOf])

theorem MunitionDescriptor.inits (ex : List (String × Tree)) : Inits (fun self => MunitionDescriptor.initHeap self)
      (([("munitionType", .sc .absent), ("warhead", .sc .absent), ("fuse", .sc .absent), ("quantity", .sc .absent), ("rate", .sc .absent)] : List (String × Tree)) ++ ex)
      (MunitionDescriptor.members {} ++ ex) := by
  unfold MunitionDescriptor.initHeap
  refine .bind (.setOr' EntityType.makesNew (by simp [attrOf_putAttr_isSome, attrOf, MunitionDescriptor.members])) ?_
  refine .bind (.set' (by simp [attrOf_putAttr_isSome, attrOf, MunitionDescriptor.members])) ?_
  refine .bind (.set' (by simp [attrOf_putAttr_isSome, attrOf, MunitionDescriptor.members])) ?_
  refine .bind (.set' (by simp [attrOf_putAttr_isSome, attrOf, MunitionDescriptor.members])) ?_
  exact .cast (.set' (by simp [attrOf_putAttr_isSome, attrOf, MunitionDescriptor.members]))
    (by simp [putAttr, MunitionDescriptor.members, Tree.ints, Tree.objs, Tree.optInt, Tree.optObj, Tree.intOr])

theorem MunitionDescriptor.makesNew : MakesNew MunitionDescriptor.newHeap (.obj (MunitionDescriptor.members MunitionDescriptor.init)) :=
  .new (.cast (MunitionDescriptor.inits []) (List.append_nil _))

theorem MunitionDescriptor.refines : Refines MunitionDescriptor.members MunitionDescriptor.parseInto MunitionDescriptor.parseHeap := by
  unfold MunitionDescriptor.parseInto MunitionDescriptor.parseHeap
  refine .bind (.call' EntityType.refines (fun o => by simp [MunitionDescriptor.members, attrOf]) (fun o v => by simp [MunitionDescriptor.members, putAttr, Tree.optInt, Tree.intOr])) fun _ => ?_
  refine .bind .read fun _ => ?_
  refine .bind (.set' (fun o => by simp [MunitionDescriptor.members, attrOf]) (fun o => by simp [MunitionDescriptor.members, putAttr, Tree.optInt, Tree.intOr])) fun _ => ?_
  refine .bind .read fun _ => ?_
  refine .bind (.set' (fun o => by simp [MunitionDescriptor.members, attrOf]) (fun o => by simp [MunitionDescriptor.members, putAttr, Tree.optInt, Tree.intOr])) fun _ => ?_
  refine .bind .read fun _ => ?_
  refine .bind (.set' (fun o => by simp [MunitionDescriptor.members, attrOf]) (fun o => by simp [MunitionDescriptor.members, putAttr, Tree.optInt, Tree.intOr])) fun _ => ?_
  refine .bind .read fun _ => ?_
  refine .bind (.set' (fun o => by simp [MunitionDescriptor.members, attrOf]) (fun o => by simp [MunitionDescriptor.members, putAttr, Tree.optInt, Tree.intOr])) fun _ => ?_
  exact .pure

theorem MunitionDescriptor.shows : Shows MunitionDescriptor.members MunitionDescriptor.serialize MunitionDescriptor.serializeHeap := by
  unfold MunitionDescriptor.serialize MunitionDescriptor.serializeHeap
  refine .bind (.call EntityType.shows (fun o => by simp [MunitionDescriptor.members, attrOf])) ?_
  refine .bind (.putInt (fun o => by simp [MunitionDescriptor.members, attrOf])) ?_
  refine .bind (.putInt (fun o => by simp [MunitionDescriptor.members, attrOf])) ?_
  refine .bind (.putInt (fun o => by simp [MunitionDescriptor.members, attrOf])) ?_
  exact .putInt (fun o => by simp [MunitionDescriptor.members, attrOf])

theorem MinefieldSensorType.inits (ex : List (String × Tree)) : Inits (fun self => MinefieldSensorType.initHeap self)
      (([("sensorType", .sc .absent)] : List (String × Tree)) ++ ex)
      (MinefieldSensorType.members {} ++ ex) := by
  unfold MinefieldSensorType.initHeap
  exact .cast (.set' (by simp [attrOf_putAttr_isSome, attrOf, MinefieldSensorType.members]))
    (by simp [putAttr, MinefieldSensorType.members, Tree.ints, Tree.objs, Tree.optInt, Tree.optObj, Tree.intOr])

theorem MinefieldSensorType.makesNew : MakesNew MinefieldSensorType.newHeap (.obj (MinefieldSensorType.members MinefieldSensorType.init)) :=
  .new (.cast (MinefieldSensorType.inits []) (List.append_nil _))

theorem MinefieldSensorType.refines : Refines MinefieldSensorType.members MinefieldSensorType.parseInto MinefieldSensorType.parseHeap := by
  unfold MinefieldSensorType.parseInto MinefieldSensorType.parseHeap
  refine .bind .read fun _ => ?_
  refine .bind (.set' (fun o => by simp [MinefieldSensorType.members, attrOf]) (fun o => by simp [MinefieldSensorType.members, putAttr, Tree.optInt, Tree.intOr])) fun _ => ?_
  exact .pure

theorem MinefieldSensorType.shows : Shows MinefieldSensorType.members MinefieldSensorType.serialize MinefieldSensorType.serializeHeap := by
  unfold MinefieldSensorType.serialize MinefieldSensorType.serializeHeap
  exact .putInt (fun o => by simp [MinefieldSensorType.members, attrOf])

theorem GroupID.inits (ex : List (String × Tree)) : Inits (fun self => GroupID.initHeap self)
      (([("simulationAddress", .sc .absent), ("groupNumber", .sc .absent)] : List (String × Tree)) ++ ex)
      (GroupID.members {} ++ ex) := by
  unfold GroupID.initHeap
  refine .bind (.setOr' SimulationAddress.makesNew (by simp [attrOf_putAttr_isSome, attrOf, GroupID.members])) ?_
  exact .cast (.set' (by simp [attrOf_putAttr_isSome, attrOf, GroupID.members]))
    (by simp [putAttr, GroupID.members, Tree.ints, Tree.objs, Tree.optInt, Tree.optObj, Tree.intOr])

theorem GroupID.makesNew : MakesNew GroupID.newHeap (.obj (GroupID.members GroupID.init)) :=
  .new (.cast (GroupID.inits []) (List.append_nil _))

theorem GroupID.refines : Refines GroupID.members GroupID.parseInto GroupID.parseHeap := by
  unfold GroupID.parseInto GroupID.parseHeap
  refine .bind (.call' SimulationAddress.refines (fun o => by simp [GroupID.members, attrOf]) (fun o v => by simp [GroupID.members, putAttr, Tree.optInt, Tree.intOr])) fun _ => ?_
  refine .bind .read fun _ => ?_
  refine .bind (.set' (fun o => by simp [GroupID.members, attrOf]) (fun o => by simp [GroupID.members, putAttr, Tree.optInt, Tree.intOr])) fun _ => ?_
  exact .pure

theorem GroupID.shows : Shows GroupID.members GroupID.serialize GroupID.serializeHeap := by
  unfold GroupID.serialize GroupID.serializeHeap
  refine .bind (.call SimulationAddress.shows (fun o => by simp [GroupID.members, attrOf])) ?_
  exact .putInt (fun o => by simp [GroupID.members, attrOf])

theorem LayerHeader.inits (ex : List (String × Tree)) : Inits (fun self => LayerHeader.initHeap self)
      (([("layerNumber", .sc .absent), ("layerSpecificInformation", .sc .absent), ("length", .sc .absent)] : List (String × Tree)) ++ ex)
      (LayerHeader.members {} ++ ex) := by
  unfold LayerHeader.initHeap
  refine .bind (.set' (by simp [attrOf_putAttr_isSome, attrOf, LayerHeader.members])) ?_
  refine .bind (.set' (by simp [attrOf_putAttr_isSome, attrOf, LayerHeader.members])) ?_
  exact .cast (.set' (by simp [attrOf_putAttr_isSome, attrOf, LayerHeader.members]))
    (by simp [putAttr, LayerHeader.members, Tree.ints, Tree.objs, Tree.optInt, Tree.optObj, Tree.intOr])

theorem LayerHeader.makesNew : MakesNew LayerHeader.newHeap (.obj (LayerHeader.members LayerHeader.init)) :=
  .new (.cast (LayerHeader.inits []) (List.append_nil _))

theorem LayerHeader.refines : Refines LayerHeader.members LayerHeader.parseInto LayerHeader.parseHeap := by
  unfold LayerHeader.parseInto LayerHeader.parseHeap
  refine .bind .read fun _ => ?_
  refine .bind (.set' (fun o => by simp [LayerHeader.members, attrOf]) (fun o => by simp [LayerHeader.members, putAttr, Tree.optInt, Tree.intOr])) fun _ => ?_
  refine .bind .read fun _ => ?_
  refine .bind (.set' (fun o => by simp [LayerHeader.members, attrOf]) (fun o => by simp [LayerHeader.members, putAttr, Tree.optInt, Tree.intOr])) fun _ => ?_
  refine .bind .read fun _ => ?_
  refine .bind (.set' (fun o => by simp [LayerHeader.members, attrOf]) (fun o => by simp [LayerHeader.members, putAttr, Tree.optInt, Tree.intOr])) fun _ => ?_
  exact .pure

theorem LayerHeader.shows : Shows LayerHeader.members LayerHeader.serialize LayerHeader.serializeHeap := by
  unfold LayerHeader.serialize LayerHeader.serializeHeap
  refine .bind (.putInt (fun o => by simp [LayerHeader.members, attrOf])) ?_
  refine .bind (.putInt (fun o => by simp [LayerHeader.members, attrOf])) ?_
  exact .putInt (fun o => by simp [LayerHeader.members, attrOf])

theorem UnsignedDISInteger.inits (ex : List (String × Tree)) : Inits (fun self => UnsignedDISInteger.initHeap self)
      (([("val", .sc .absent)] : List (String × Tree)) ++ ex)
      (UnsignedDISInteger.members {} ++ ex) := by
  unfold UnsignedDISInteger.initHeap
  exact .cast (.set' (by simp [attrOf_putAttr_isSome, attrOf, UnsignedDISInteger.members]))
    (by simp [putAttr, UnsignedDISInteger.members, Tree.ints, Tree.objs, Tree.optInt, Tree.optObj, Tree.intOr])

theorem UnsignedDISInteger.makesNew : MakesNew UnsignedDISInteger.newHeap (.obj (UnsignedDISInteger.members UnsignedDISInteger.init)) :=
  .new (.cast (UnsignedDISInteger.inits []) (List.append_nil _))

theorem UnsignedDISInteger.refines : Refines UnsignedDISInteger.members UnsignedDISInteger.parseInto UnsignedDISInteger.parseHeap := by
  unfold UnsignedDISInteger.parseInto UnsignedDISInteger.parseHeap
  refine .bind .read fun _ => ?_
  refine .bind (.set' (fun o => by simp [UnsignedDISInteger.members, attrOf]) (fun o => by simp [UnsignedDISInteger.members, putAttr, Tree.optInt, Tree.intOr])) fun _ => ?_
  exact .pure

theorem UnsignedDISInteger.shows : Shows UnsignedDISInteger.members UnsignedDISInteger.serialize UnsignedDISInteger.serializeHeap := by
  unfold UnsignedDISInteger.serialize UnsignedDISInteger.serializeHeap
  exact .putInt (fun o => by simp [UnsignedDISInteger.members, attrOf])

theorem DeadReckoningParameters.inits (ex : List (String × Tree)) : Inits (fun self => DeadReckoningParameters.initHeap self)
      (([("deadReckoningAlgorithm", .sc .absent), ("parameters", .sc .absent), ("entityLinearAcceleration", .sc .absent), ("entityAngularVelocity", .sc .absent)] : List (String × Tree)) ++ ex)
      (DeadReckoningParameters.members {} ++ ex) := by
  unfold DeadReckoningParameters.initHeap
  refine .bind (.set' (by simp [attrOf_putAttr_isSome, attrOf, DeadReckoningParameters.members])) ?_
  refine .bind (.setOr' (.zeros 15) (by simp [attrOf_putAttr_isSome, attrOf, DeadReckoningParameters.members])) ?_
  refine .bind (.setOr' Vector3Float.makesNew (by simp [attrOf_putAttr_isSome, attrOf, DeadReckoningParameters.members])) ?_
  exact .cast (.setOr' Vector3Float.makesNew (by simp [attrOf_putAttr_isSome, attrOf, DeadReckoningParameters.members]))
    (by simp [putAttr, DeadReckoningParameters.members, Tree.ints, Tree.objs, Tree.optInt, Tree.optObj, Tree.intOr])

theorem DeadReckoningParameters.makesNew : MakesNew DeadReckoningParameters.newHeap (.obj (DeadReckoningParameters.members DeadReckoningParameters.init)) :=
  .new (.cast (DeadReckoningParameters.inits []) (List.append_nil _))

theorem DeadReckoningParameters.refines : Refines DeadReckoningParameters.members DeadReckoningParameters.parseInto DeadReckoningParameters.parseHeap := by
  unfold DeadReckoningParameters.parseInto DeadReckoningParameters.parseHeap
  refine .bind .read fun _ => ?_
  refine .bind (.set' (fun o => by simp [DeadReckoningParameters.members, attrOf]) (fun o => by simp [DeadReckoningParameters.members, putAttr, Tree.optInt, Tree.intOr])) fun _ => ?_
  refine .bind (.fill ⟨fun _ _ => rfl, fun _ _ _ => rfl, fun _ => rfl⟩ (fun o => by simp [DeadReckoningParameters.members, attrOf]) (fun o v => by simp [DeadReckoningParameters.members, putAttr, Tree.optInt, Tree.intOr])) fun _ => ?_
  refine .bind (.call' Vector3Float.refines (fun o => by simp [DeadReckoningParameters.members, attrOf]) (fun o v => by simp [DeadReckoningParameters.members, putAttr, Tree.optInt, Tree.intOr])) fun _ => ?_
  refine .bind (.call' Vector3Float.refines (fun o => by simp [DeadReckoningParameters.members, attrOf]) (fun o v => by simp [DeadReckoningParameters.members, putAttr, Tree.optInt, Tree.intOr])) fun _ => ?_
  exact .pure

theorem DeadReckoningParameters.shows : Shows DeadReckoningParameters.members DeadReckoningParameters.serialize DeadReckoningParameters.serializeHeap := by
  unfold DeadReckoningParameters.serialize DeadReckoningParameters.serializeHeap
  refine .bind (.putInt (fun o => by simp [DeadReckoningParameters.members, attrOf])) ?_
  refine .bind (.items (fun o => by simp [DeadReckoningParameters.members, attrOf])) ?_
  refine .bind (.call Vector3Float.shows (fun o => by simp [DeadReckoningParameters.members, attrOf])) ?_
  exact .call Vector3Float.shows (fun o => by simp [DeadReckoningParameters.members, attrOf])

theorem ProtocolMode.inits (ex : List (String × Tree)) : Inits (fun self => ProtocolMode.initHeap self)
      (([("protocolMode", .sc .absent)] : List (String × Tree)) ++ ex)
      (ProtocolMode.members {} ++ ex) := by
  unfold ProtocolMode.initHeap
  exact .cast (.set' (by simp [attrOf_putAttr_isSome, attrOf, ProtocolMode.members]))
    (by simp [putAttr, ProtocolMode.members, Tree.ints, Tree.objs, Tree.optInt, Tree.optObj, Tree.intOr])

theorem ProtocolMode.makesNew : MakesNew ProtocolMode.newHeap (.obj (ProtocolMode.members ProtocolMode.init)) :=
  .new (.cast (ProtocolMode.inits []) (List.append_nil _))

theorem ProtocolMode.refines : Refines ProtocolMode.members ProtocolMode.parseInto ProtocolMode.parseHeap := by
  unfold ProtocolMode.parseInto ProtocolMode.parseHeap
  refine .bind .read fun _ => ?_
  refine .bind (.set' (fun o => by simp [ProtocolMode.members, attrOf]) (fun o => by simp [ProtocolMode.members, putAttr, Tree.optInt, Tree.intOr])) fun _ => ?_
  exact .pure

theorem ProtocolMode.shows : Shows ProtocolMode.members ProtocolMode.serialize ProtocolMode.serializeHeap := by
  unfold ProtocolMode.serialize ProtocolMode.serializeHeap
  exact .putInt (fun o => by simp [ProtocolMode.members, attrOf])

theorem AngleDeception.inits (ex : List (String × Tree)) : Inits (fun self => AngleDeception.initHeap self)
      (([("recordType", .sc (.int 3501)), ("recordLength", .sc (.int 48)), ("padding", .sc .absent), ("emitterNumber", .sc .absent), ("beamNumber", .sc .absent), ("stateIndicator", .sc .absent), ("padding2", .sc .absent), ("azimuthOffset", .sc .absent), ("azimuthWidth", .sc .absent), ("azimuthPullRate", .sc .absent), ("azimuthPullAcceleration", .sc .absent), ("elevationOffset", .sc .absent), ("elevationWidth", .sc .absent), ("elevationPullRate", .sc .absent), ("elevationPullAcceleration", .sc .absent), ("padding3", .sc .absent)] : List (String × Tree)) ++ ex)
      (AngleDeception.members {} ++ ex) := by
  unfold AngleDeception.initHeap
  refine .bind (.set' (by simp [attrOf_putAttr_isSome, attrOf, AngleDeception.members])) ?_
  refine .bind (.set' (by simp [attrOf_putAttr_isSome, attrOf, AngleDeception.members])) ?_
  refine .bind (.set' (by simp [attrOf_putAttr_isSome, attrOf, AngleDeception.members])) ?_
  refine .bind (.set' (by simp [attrOf_putAttr_isSome, attrOf, AngleDeception.members])) ?_
  refine .bind (.set' (by simp [attrOf_putAttr_isSome, attrOf, AngleDeception.members])) ?_
  refine .bind (.set' (by simp [attrOf_putAttr_isSome, attrOf, AngleDeception.members])) ?_
  refine .bind (.set' (by simp [attrOf_putAttr_isSome, attrOf, AngleDeception.members])) ?_
  refine .bind (.set' (by simp [attrOf_putAttr_isSome, attrOf, AngleDeception.members])) ?_
  refine .bind (.set' (by simp [attrOf_putAttr_isSome, attrOf, AngleDeception.members])) ?_
  refine .bind (.set' (by simp [attrOf_putAttr_isSome, attrOf, AngleDeception.members])) ?_
  refine .bind (.set' (by simp [attrOf_putAttr_isSome, attrOf, AngleDeception.members])) ?_
  refine .bind (.set' (by simp [attrOf_putAttr_isSome, attrOf, AngleDeception.members])) ?_
  refine .bind (.set' (by simp [attrOf_putAttr_isSome, attrOf, AngleDeception.members])) ?_
  exact .cast (.set' (by simp [attrOf_putAttr_isSome, attrOf, AngleDeception.members]))
    (by simp [putAttr, AngleDeception.members, Tree.ints, Tree.objs, Tree.optInt, Tree.optObj, Tree.intOr])

theorem AngleDeception.makesNew : MakesNew AngleDeception.newHeap (.obj (AngleDeception.members AngleDeception.init)) :=
  .new (.cast (AngleDeception.inits []) (List.append_nil _))

theorem AngleDeception.refines : Refines AngleDeception.members AngleDeception.parseInto AngleDeception.parseHeap := by
  unfold AngleDeception.parseInto AngleDeception.parseHeap
  refine .bind .read fun _ => ?_
  refine .bind (.set' (fun o => by simp [AngleDeception.members, attrOf]) (fun o => by simp [AngleDeception.members, putAttr, Tree.optInt, Tree.intOr])) fun _ => ?_
  refine .bind .read fun _ => ?_
  refine .bind (.set' (fun o => by simp [AngleDeception.members, attrOf]) (fun o => by simp [AngleDeception.members, putAttr, Tree.optInt, Tree.intOr])) fun _ => ?_
  refine .bind .read fun _ => ?_
  refine .bind (.set' (fun o => by simp [AngleDeception.members, attrOf]) (fun o => by simp [AngleDeception.members, putAttr, Tree.optInt, Tree.intOr])) fun _ => ?_
  refine .bind .read fun _ => ?_
  refine .bind (.set' (fun o => by simp [AngleDeception.members, attrOf]) (fun o => by simp [AngleDeception.members, putAttr, Tree.optInt, Tree.intOr])) fun _ => ?_
  refine .bind .read fun _ => ?_
  refine .bind (.set' (fun o => by simp [AngleDeception.members, attrOf]) (fun o => by simp [AngleDeception.members, putAttr, Tree.optInt, Tree.intOr])) fun _ => ?_
  refine .bind .read fun _ => ?_
  refine .bind (.set' (fun o => by simp [AngleDeception.members, attrOf]) (fun o => by simp [AngleDeception.members, putAttr, Tree.optInt, Tree.intOr])) fun _ => ?_
  refine .bind .read fun _ => ?_
  refine .bind (.set' (fun o => by simp [AngleDeception.members, attrOf]) (fun o => by simp [AngleDeception.members, putAttr, Tree.optInt, Tree.intOr])) fun _ => ?_
  refine .bind .read fun _ => ?_
  refine .bind (.set' (fun o => by simp [AngleDeception.members, attrOf]) (fun o => by simp [AngleDeception.members, putAttr, Tree.optInt, Tree.intOr])) fun _ => ?_
  refine .bind .read fun _ => ?_
  refine .bind (.set' (fun o => by simp [AngleDeception.members, attrOf]) (fun o => by simp [AngleDeception.members, putAttr, Tree.optInt, Tree.intOr])) fun _ => ?_
  refine .bind .read fun _ => ?_
  refine .bind (.set' (fun o => by simp [AngleDeception.members, attrOf]) (fun o => by simp [AngleDeception.members, putAttr, Tree.optInt, Tree.intOr])) fun _ => ?_
  refine .bind .read fun _ => ?_
  refine .bind (.set' (fun o => by simp [AngleDeception.members, attrOf]) (fun o => by simp [AngleDeception.members, putAttr, Tree.optInt, Tree.intOr])) fun _ => ?_
  refine .bind .read fun _ => ?_
  refine .bind (.set' (fun o => by simp [AngleDeception.members, attrOf]) (fun o => by simp [AngleDeception.members, putAttr, Tree.optInt, Tree.intOr])) fun _ => ?_
  refine .bind .read fun _ => ?_
  refine .bind (.set' (fun o => by simp [AngleDeception.members, attrOf]) (fun o => by simp [AngleDeception.members, putAttr, Tree.optInt, Tree.intOr])) fun _ => ?_
  refine .bind .read fun _ => ?_
  refine .bind (.set' (fun o => by simp [AngleDeception.members, attrOf]) (fun o => by simp [AngleDeception.members, putAttr, Tree.optInt, Tree.intOr])) fun _ => ?_
  refine .bind .read fun _ => ?_
  refine .bind (.set' (fun o => by simp [AngleDeception.members, attrOf]) (fun o => by simp [AngleDeception.members, putAttr, Tree.optInt, Tree.intOr])) fun _ => ?_
  refine .bind .read fun _ => ?_
  refine .bind (.set' (fun o => by simp [AngleDeception.members, attrOf]) (fun o => by simp [AngleDeception.members, putAttr, Tree.optInt, Tree.intOr])) fun _ => ?_
  exact .pure

theorem AngleDeception.shows : Shows AngleDeception.members AngleDeception.serialize AngleDeception.serializeHeap := by
  unfold AngleDeception.serialize AngleDeception.serializeHeap
  refine .bind (.putInt (fun o => by simp [AngleDeception.members, attrOf])) ?_
  refine .bind (.putInt (fun o => by simp [AngleDeception.members, attrOf])) ?_
  refine .bind (.putInt (fun o => by simp [AngleDeception.members, attrOf])) ?_
  refine .bind (.putInt (fun o => by simp [AngleDeception.members, attrOf])) ?_
  refine .bind (.putInt (fun o => by simp [AngleDeception.members, attrOf])) ?_
  refine .bind (.putInt (fun o => by simp [AngleDeception.members, attrOf])) ?_
  refine .bind (.putInt (fun o => by simp [AngleDeception.members, attrOf])) ?_
  refine .bind (.putFloat (fun o => by simp [AngleDeception.members, attrOf])) ?_
  refine .bind (.putFloat (fun o => by simp [AngleDeception.members, attrOf])) ?_
  refine .bind (.putFloat (fun o => by simp [AngleDeception.members, attrOf])) ?_
  refine .bind (.putFloat (fun o => by simp [AngleDeception.members, attrOf])) ?_
  refine .bind (.putFloat (fun o => by simp [AngleDeception.members, attrOf])) ?_
  refine .bind (.putFloat (fun o => by simp [AngleDeception.members, attrOf])) ?_
  refine .bind (.putFloat (fun o => by simp [AngleDeception.members, attrOf])) ?_
  refine .bind (.putFloat (fun o => by simp [AngleDeception.members, attrOf])) ?_
  exact .putInt (fun o => by simp [AngleDeception.members, attrOf])

theorem EntityAssociation.inits (ex : List (String × Tree)) : Inits (fun self => EntityAssociation.initHeap self)
      (([("recordType", .sc (.int 4)), ("changeIndicator", .sc .absent), ("associationStatus", .sc .absent), ("associationType", .sc .absent), ("entityID", .sc .absent), ("ownStationLocation", .sc .absent), ("physicalConnectionType", .sc .absent), ("groupMemberType", .sc .absent), ("groupNumber", .sc .absent)] : List (String × Tree)) ++ ex)
      (EntityAssociation.members {} ++ ex) := by
  unfold EntityAssociation.initHeap
  refine .bind (.set' (by simp [attrOf_putAttr_isSome, attrOf, EntityAssociation.members])) ?_
  refine .bind (.set' (by simp [attrOf_putAttr_isSome, attrOf, EntityAssociation.members])) ?_
  refine .bind (.set' (by simp [attrOf_putAttr_isSome, attrOf, EntityAssociation.members])) ?_
  refine .bind (.setOr' EntityIdentifier.makesNew (by simp [attrOf_putAttr_isSome, attrOf, EntityAssociation.members])) ?_
  refine .bind (.set' (by simp [attrOf_putAttr_isSome, attrOf, EntityAssociation.members])) ?_
  refine .bind (.set' (by simp [attrOf_putAttr_isSome, attrOf, EntityAssociation.members])) ?_
  refine .bind (.set' (by simp [attrOf_putAttr_isSome, attrOf, EntityAssociation.members])) ?_
  exact .cast (.set' (by simp [attrOf_putAttr_isSome, attrOf, EntityAssociation.members]))
    (by simp [putAttr, EntityAssociation.members, Tree.ints, Tree.objs, Tree.optInt, Tree.optObj, Tree.intOr])

theorem EntityAssociation.makesNew : MakesNew EntityAssociation.newHeap (.obj (EntityAssociation.members EntityAssociation.init)) :=
  .new (.cast (EntityAssociation.inits []) (List.append_nil _))

theorem EntityAssociation.refines : Refines EntityAssociation.members EntityAssociation.parseInto EntityAssociation.parseHeap := by
  unfold EntityAssociation.parseInto EntityAssociation.parseHeap
  refine .bind .read fun _ => ?_
  refine .bind (.set' (fun o => by simp [EntityAssociation.members, attrOf]) (fun o => by simp [EntityAssociation.members, putAttr, Tree.optInt, Tree.intOr])) fun _ => ?_
  refine .bind .read fun _ => ?_
  refine .bind (.set' (fun o => by simp [EntityAssociation.members, attrOf]) (fun o => by simp [EntityAssociation.members, putAttr, Tree.optInt, Tree.intOr])) fun _ => ?_
  refine .bind .read fun _ => ?_
  refine .bind (.set' (fun o => by simp [EntityAssociation.members, attrOf]) (fun o => by simp [EntityAssociation.members, putAttr, Tree.optInt, Tree.intOr])) fun _ => ?_
  refine .bind .read fun _ => ?_
  refine .bind (.set' (fun o => by simp [EntityAssociation.members, attrOf]) (fun o => by simp [EntityAssociation.members, putAttr, Tree.optInt, Tree.intOr])) fun _ => ?_
  refine .bind (.call' EntityIdentifier.refines (fun o => by simp [EntityAssociation.members, attrOf]) (fun o v => by simp [EntityAssociation.members, putAttr, Tree.optInt, Tree.intOr])) fun _ => ?_
  refine .bind .read fun _ => ?_
  refine .bind (.set' (fun o => by simp [EntityAssociation.members, attrOf]) (fun o => by simp [EntityAssociation.members, putAttr, Tree.optInt, Tree.intOr])) fun _ => ?_
  refine .bind .read fun _ => ?_
  refine .bind (.set' (fun o => by simp [EntityAssociation.members, attrOf]) (fun o => by simp [EntityAssociation.members, putAttr, Tree.optInt, Tree.intOr])) fun _ => ?_
  refine .bind .read fun _ => ?_
  refine .bind (.set' (fun o => by simp [EntityAssociation.members, attrOf]) (fun o => by simp [EntityAssociation.members, putAttr, Tree.optInt, Tree.intOr])) fun _ => ?_
  refine .bind .read fun _ => ?_
  refine .bind (.set' (fun o => by simp [EntityAssociation.members, attrOf]) (fun o => by simp [EntityAssociation.members, putAttr, Tree.optInt, Tree.intOr])) fun _ => ?_
  exact .pure

theorem EntityAssociation.shows : Shows EntityAssociation.members EntityAssociation.serialize EntityAssociation.serializeHeap := by
  unfold EntityAssociation.serialize EntityAssociation.serializeHeap
  refine .bind (.putInt (fun o => by simp [EntityAssociation.members, attrOf])) ?_
  refine .bind (.putInt (fun o => by simp [EntityAssociation.members, attrOf])) ?_
  refine .bind (.putInt (fun o => by simp [EntityAssociation.members, attrOf])) ?_
  refine .bind (.putInt (fun o => by simp [EntityAssociation.members, attrOf])) ?_
  refine .bind (.call EntityIdentifier.shows (fun o => by simp [EntityAssociation.members, attrOf])) ?_
  refine .bind (.putInt (fun o => by simp [EntityAssociation.members, attrOf])) ?_
  refine .bind (.putInt (fun o => by simp [EntityAssociation.members, attrOf])) ?_
  refine .bind (.putInt (fun o => by simp [EntityAssociation.members, attrOf])) ?_
  exact .putInt (fun o => by simp [EntityAssociation.members, attrOf])

theorem VectoringNozzleSystem.inits (ex : List (String × Tree)) : Inits (fun self => VectoringNozzleSystem.initHeap self)
      (([("horizontalDeflectionAngle", .sc .absent), ("verticalDeflectionAngle", .sc .absent)] : List (String × Tree)) ++ ex)
      (VectoringNozzleSystem.members {} ++ ex) := by
  unfold VectoringNozzleSystem.initHeap
  refine .bind (.set' (by simp [attrOf_putAttr_isSome, attrOf, VectoringNozzleSystem.members])) ?_
  exact .cast (.set' (by simp [attrOf_putAttr_isSome, attrOf, VectoringNozzleSystem.members]))
    (by simp [putAttr, VectoringNozzleSystem.members, Tree.ints, Tree.objs, Tree.optInt, Tree.optObj, Tree.intOr])

theorem VectoringNozzleSystem.makesNew : MakesNew VectoringNozzleSystem.newHeap (.obj (VectoringNozzleSystem.members VectoringNozzleSystem.init)) :=
  .new (.cast (VectoringNozzleSystem.inits []) (List.append_nil _))

theorem VectoringNozzleSystem.refines : Refines VectoringNozzleSystem.members VectoringNozzleSystem.parseInto VectoringNozzleSystem.parseHeap := by
  unfold VectoringNozzleSystem.parseInto VectoringNozzleSystem.parseHeap
  refine .bind .read fun _ => ?_
  refine .bind (.set' (fun o => by simp [VectoringNozzleSystem.members, attrOf]) (fun o => by simp [VectoringNozzleSystem.members, putAttr, Tree.optInt, Tree.intOr])) fun _ => ?_
  refine .bind .read fun _ => ?_
  refine .bind (.set' (fun o => by simp [VectoringNozzleSystem.members, attrOf]) (fun o => by simp [VectoringNozzleSystem.members, putAttr, Tree.optInt, Tree.intOr])) fun _ => ?_
  exact .pure

theorem VectoringNozzleSystem.shows : Shows VectoringNozzleSystem.members VectoringNozzleSystem.serialize VectoringNozzleSystem.serializeHeap := by
  unfold VectoringNozzleSystem.serialize VectoringNozzleSystem.serializeHeap
  refine .bind (.putFloat (fun o => by simp [VectoringNozzleSystem.members, attrOf])) ?_
  exact .putFloat (fun o => by simp [VectoringNozzleSystem.members, attrOf])

theorem FalseTargetsAttribute.inits (ex : List (String × Tree)) : Inits (fun self => FalseTargetsAttribute.initHeap self)
      (([("recordType", .sc (.int 3502)), ("recordLength", .sc (.int 48)), ("padding", .sc .absent), ("emitterNumber", .sc .absent), ("beamNumber", .sc .absent), ("stateIndicator", .sc .absent), ("padding2", .sc .absent), ("falseTargetCount", .sc .absent), ("walkSpeed", .sc .absent), ("walkAcceleration", .sc .absent), ("maximumWalkDistance", .sc .absent), ("keepTime", .sc .absent), ("echoSpacing", .sc .absent)] : List (String × Tree)) ++ ex)
      (FalseTargetsAttribute.members {} ++ ex) := by
  unfold FalseTargetsAttribute.initHeap
  refine .bind (.set' (by simp [attrOf_putAttr_isSome, attrOf, FalseTargetsAttribute.members])) ?_
  refine .bind (.set' (by simp [attrOf_putAttr_isSome, attrOf, FalseTargetsAttribute.members])) ?_
  refine .bind (.set' (by simp [attrOf_putAttr_isSome, attrOf, FalseTargetsAttribute.members])) ?_
  refine .bind (.set' (by simp [attrOf_putAttr_isSome, attrOf, FalseTargetsAttribute.members])) ?_
  refine .bind (.set' (by simp [attrOf_putAttr_isSome, attrOf, FalseTargetsAttribute.members])) ?_
  refine .bind (.set' (by simp [attrOf_putAttr_isSome, attrOf, FalseTargetsAttribute.members])) ?_
  refine .bind (.set' (by simp [attrOf_putAttr_isSome, attrOf, FalseTargetsAttribute.members])) ?_
  refine .bind (.set' (by simp [attrOf_putAttr_isSome, attrOf, FalseTargetsAttribute.members])) ?_
  refine .bind (.set' (by simp [attrOf_putAttr_isSome, attrOf, FalseTargetsAttribute.members])) ?_
  refine .bind (.set' (by simp [attrOf_putAttr_isSome, attrOf, FalseTargetsAttribute.members])) ?_
  exact .cast (.set' (by simp [attrOf_putAttr_isSome, attrOf, FalseTargetsAttribute.members]))
    (by simp [putAttr, FalseTargetsAttribute.members, Tree.ints, Tree.objs, Tree.optInt, Tree.optObj, Tree.intOr])

theorem FalseTargetsAttribute.makesNew : MakesNew FalseTargetsAttribute.newHeap (.obj (FalseTargetsAttribute.members FalseTargetsAttribute.init)) :=
  .new (.cast (FalseTargetsAttribute.inits []) (List.append_nil _))

theorem FalseTargetsAttribute.refines : Refines FalseTargetsAttribute.members FalseTargetsAttribute.parseInto FalseTargetsAttribute.parseHeap := by
  unfold FalseTargetsAttribute.parseInto FalseTargetsAttribute.parseHeap
  refine .bind .read fun _ => ?_
  refine .bind (.set' (fun o => by simp [FalseTargetsAttribute.members, attrOf]) (fun o => by simp [FalseTargetsAttribute.members, putAttr, Tree.optInt, Tree.intOr])) fun _ => ?_
  refine .bind .read fun _ => ?_
  refine .bind (.set' (fun o => by simp [FalseTargetsAttribute.members, attrOf]) (fun o => by simp [FalseTargetsAttribute.members, putAttr, Tree.optInt, Tree.intOr])) fun _ => ?_
  refine .bind .read fun _ => ?_
  refine .bind (.set' (fun o => by simp [FalseTargetsAttribute.members, attrOf]) (fun o => by simp [FalseTargetsAttribute.members, putAttr, Tree.optInt, Tree.intOr])) fun _ => ?_
  refine .bind .read fun _ => ?_
  refine .bind (.set' (fun o => by simp [FalseTargetsAttribute.members, attrOf]) (fun o => by simp [FalseTargetsAttribute.members, putAttr, Tree.optInt, Tree.intOr])) fun _ => ?_
  refine .bind .read fun _ => ?_
  refine .bind (.set' (fun o => by simp [FalseTargetsAttribute.members, attrOf]) (fun o => by simp [FalseTargetsAttribute.members, putAttr, Tree.optInt, Tree.intOr])) fun _ => ?_
  refine .bind .read fun _ => ?_
  refine .bind (.set' (fun o => by simp [FalseTargetsAttribute.members, attrOf]) (fun o => by simp [FalseTargetsAttribute.members, putAttr, Tree.optInt, Tree.intOr])) fun _ => ?_
  refine .bind .read fun _ => ?_
  refine .bind (.set' (fun o => by simp [FalseTargetsAttribute.members, attrOf]) (fun o => by simp [FalseTargetsAttribute.members, putAttr, Tree.optInt, Tree.intOr])) fun _ => ?_
  refine .bind .read fun _ => ?_
  refine .bind (.set' (fun o => by simp [FalseTargetsAttribute.members, attrOf]) (fun o => by simp [FalseTargetsAttribute.members, putAttr, Tree.optInt, Tree.intOr])) fun _ => ?_
  refine .bind .read fun _ => ?_
  refine .bind (.set' (fun o => by simp [FalseTargetsAttribute.members, attrOf]) (fun o => by simp [FalseTargetsAttribute.members, putAttr, Tree.optInt, Tree.intOr])) fun _ => ?_
  refine .bind .read fun _ => ?_
  refine .bind (.set' (fun o => by simp [FalseTargetsAttribute.members, attrOf]) (fun o => by simp [FalseTargetsAttribute.members, putAttr, Tree.optInt, Tree.intOr])) fun _ => ?_
  refine .bind .read fun _ => ?_
  refine .bind (.set' (fun o => by simp [FalseTargetsAttribute.members, attrOf]) (fun o => by simp [FalseTargetsAttribute.members, putAttr, Tree.optInt, Tree.intOr])) fun _ => ?_
  refine .bind .read fun _ => ?_
  refine .bind (.set' (fun o => by simp [FalseTargetsAttribute.members, attrOf]) (fun o => by simp [FalseTargetsAttribute.members, putAttr, Tree.optInt, Tree.intOr])) fun _ => ?_
  refine .bind .read fun _ => ?_
  refine .bind (.set' (fun o => by simp [FalseTargetsAttribute.members, attrOf]) (fun o => by simp [FalseTargetsAttribute.members, putAttr, Tree.optInt, Tree.intOr])) fun _ => ?_
  exact .pure

theorem FalseTargetsAttribute.shows : Shows FalseTargetsAttribute.members FalseTargetsAttribute.serialize FalseTargetsAttribute.serializeHeap := by
  unfold FalseTargetsAttribute.serialize FalseTargetsAttribute.serializeHeap
  refine .bind (.putInt (fun o => by simp [FalseTargetsAttribute.members, attrOf])) ?_
  refine .bind (.putInt (fun o => by simp [FalseTargetsAttribute.members, attrOf])) ?_
  refine .bind (.putInt (fun o => by simp [FalseTargetsAttribute.members, attrOf])) ?_
  refine .bind (.putInt (fun o => by simp [FalseTargetsAttribute.members, attrOf])) ?_
  refine .bind (.putInt (fun o => by simp [FalseTargetsAttribute.members, attrOf])) ?_
  refine .bind (.putInt (fun o => by simp [FalseTargetsAttribute.members, attrOf])) ?_
  refine .bind (.putInt (fun o => by simp [FalseTargetsAttribute.members, attrOf])) ?_
  refine .bind (.putInt (fun o => by simp [FalseTargetsAttribute.members, attrOf])) ?_
  refine .bind (.putFloat (fun o => by simp [FalseTargetsAttribute.members, attrOf])) ?_
  refine .bind (.putFloat (fun o => by simp [FalseTargetsAttribute.members, attrOf])) ?_
  refine .bind (.putFloat (fun o => by simp [FalseTargetsAttribute.members, attrOf])) ?_
  refine .bind (.putFloat (fun o => by simp [FalseTargetsAttribute.members, attrOf])) ?_
  exact .putFloat (fun o => by simp [FalseTargetsAttribute.members, attrOf])

theorem MinefieldIdentifier.inits (ex : List (String × Tree)) : Inits (fun self => MinefieldIdentifier.initHeap self)
      (([("simulationAddress", .sc .absent), ("minefieldNumber", .sc .absent)] : List (String × Tree)) ++ ex)
      (MinefieldIdentifier.members {} ++ ex) := by
  unfold MinefieldIdentifier.initHeap
  refine .bind (.setOr' SimulationAddress.makesNew (by simp [attrOf_putAttr_isSome, attrOf, MinefieldIdentifier.members])) ?_
  exact .cast (.set' (by simp [attrOf_putAttr_isSome, attrOf, MinefieldIdentifier.members]))
    (by simp [putAttr, MinefieldIdentifier.members, Tree.ints, Tree.objs, Tree.optInt, Tree.optObj, Tree.intOr])

theorem MinefieldIdentifier.makesNew : MakesNew MinefieldIdentifier.newHeap (.obj (MinefieldIdentifier.members MinefieldIdentifier.init)) :=
  .new (.cast (MinefieldIdentifier.inits []) (List.append_nil _))

theorem MinefieldIdentifier.refines : Refines MinefieldIdentifier.members MinefieldIdentifier.parseInto MinefieldIdentifier.parseHeap := by
  unfold MinefieldIdentifier.parseInto MinefieldIdentifier.parseHeap
  refine .bind (.call' SimulationAddress.refines (fun o => by simp [MinefieldIdentifier.members, attrOf]) (fun o v => by simp [MinefieldIdentifier.members, putAttr, Tree.optInt, Tree.intOr])) fun _ => ?_
  refine .bind .read fun _ => ?_
  refine .bind (.set' (fun o => by simp [MinefieldIdentifier.members, attrOf]) (fun o => by simp [MinefieldIdentifier.members, putAttr, Tree.optInt, Tree.intOr])) fun _ => ?_
  exact .pure

theorem MinefieldIdentifier.shows : Shows MinefieldIdentifier.members MinefieldIdentifier.serialize MinefieldIdentifier.serializeHeap := by
  unfold MinefieldIdentifier.serialize MinefieldIdentifier.serializeHeap
  refine .bind (.call SimulationAddress.shows (fun o => by simp [MinefieldIdentifier.members, attrOf])) ?_
  exact .putInt (fun o => by simp [MinefieldIdentifier.members, attrOf])

theorem RadioType.inits (ex : List (String × Tree)) : Inits (fun self => RadioType.initHeap self)
      (([("entityKind", .sc (.int 7)), ("domain", .sc .absent), ("country", .sc .absent), ("category", .sc .absent), ("subcategory", .sc .absent), ("specific", .sc .absent), ("extra", .sc .absent)] : List (String × Tree)) ++ ex)
      (RadioType.members {} ++ ex) := by
  unfold RadioType.initHeap
  refine .bind (.set' (by simp [attrOf_putAttr_isSome, attrOf, RadioType.members])) ?_
  refine .bind (.set' (by simp [attrOf_putAttr_isSome, attrOf, RadioType.members])) ?_
  refine .bind (.set' (by simp [attrOf_putAttr_isSome, attrOf, RadioType.members])) ?_
  refine .bind (.set' (by simp [attrOf_putAttr_isSome, attrOf, RadioType.members])) ?_
  refine .bind (.set' (by simp [attrOf_putAttr_isSome, attrOf, RadioType.members])) ?_
  exact .cast (.set' (by simp [attrOf_putAttr_isSome, attrOf, RadioType.members]))
    (by simp [putAttr, RadioType.members, Tree.ints, Tree.objs, Tree.optInt, Tree.optObj, Tree.intOr])

theorem RadioType.makesNew : MakesNew RadioType.newHeap (.obj (RadioType.members RadioType.init)) :=
  .new (.cast (RadioType.inits []) (List.append_nil _))

theorem RadioType.refines : Refines RadioType.members RadioType.parseInto RadioType.parseHeap := by
  unfold RadioType.parseInto RadioType.parseHeap
  refine .bind .read fun _ => ?_
  refine .bind (.set' (fun o => by simp [RadioType.members, attrOf]) (fun o => by simp [RadioType.members, putAttr, Tree.optInt, Tree.intOr])) fun _ => ?_
  refine .bind .read fun _ => ?_
  refine .bind (.set' (fun o => by simp [RadioType.members, attrOf]) (fun o => by simp [RadioType.members, putAttr, Tree.optInt, Tree.intOr])) fun _ => ?_
  refine .bind .read fun _ => ?_
  refine .bind (.set' (fun o => by simp [RadioType.members, attrOf]) (fun o => by simp [RadioType.members, putAttr, Tree.optInt, Tree.intOr])) fun _ => ?_
  refine .bind .read fun _ => ?_
  refine .bind (.set' (fun o => by simp [RadioType.members, attrOf]) (fun o => by simp [RadioType.members, putAttr, Tree.optInt, Tree.intOr])) fun _ => ?_
  refine .bind .read fun _ => ?_
  refine .bind (.set' (fun o => by simp [RadioType.members, attrOf]) (fun o => by simp [RadioType.members, putAttr, Tree.optInt, Tree.intOr])) fun _ => ?_
  refine .bind .read fun _ => ?_
  refine .bind (.set' (fun o => by simp [RadioType.members, attrOf]) (fun o => by simp [RadioType.members, putAttr, Tree.optInt, Tree.intOr])) fun _ => ?_
  refine .bind .read fun _ => ?_
  refine .bind (.set' (fun o => by simp [RadioType.members, attrOf]) (fun o => by simp [RadioType.members, putAttr, Tree.optInt, Tree.intOr])) fun _ => ?_
  exact .pure

theorem RadioType.shows : Shows RadioType.members RadioType.serialize RadioType.serializeHeap := by
  unfold RadioType.serialize RadioType.serializeHeap
  refine .bind (.putInt (fun o => by simp [RadioType.members, attrOf])) ?_
  refine .bind (.putInt (fun o => by simp [RadioType.members, attrOf])) ?_
  refine .bind (.putInt (fun o => by simp [RadioType.members, attrOf])) ?_
  refine .bind (.putInt (fun o => by simp [RadioType.members, attrOf])) ?_
  refine .bind (.putInt (fun o => by simp [RadioType.members, attrOf])) ?_
  refine .bind (.putInt (fun o => by simp [RadioType.members, attrOf])) ?_
  exact .putInt (fun o => by simp [RadioType.members, attrOf])

theorem NamedLocationIdentification.inits (ex : List (String × Tree)) : Inits (fun self => NamedLocationIdentification.initHeap self)
      (([("stationName", .sc .absent), ("stationNumber", .sc .absent)] : List (String × Tree)) ++ ex)
      (NamedLocationIdentification.members {} ++ ex) := by
  unfold NamedLocationIdentification.initHeap
  refine .bind (.set' (by simp [attrOf_putAttr_isSome, attrOf, NamedLocationIdentification.members])) ?_
  exact .cast (.set' (by simp [attrOf_putAttr_isSome, attrOf, NamedLocationIdentification.members]))
    (by simp [putAttr, NamedLocationIdentification.members, Tree.ints, Tree.objs, Tree.optInt, Tree.optObj, Tree.intOr])

theorem NamedLocationIdentification.makesNew : MakesNew NamedLocationIdentification.newHeap (.obj (NamedLocationIdentification.members NamedLocationIdentification.init)) :=
  .new (.cast (NamedLocationIdentification.inits []) (List.append_nil _))

theorem NamedLocationIdentification.refines : Refines NamedLocationIdentification.members NamedLocationIdentification.parseInto NamedLocationIdentification.parseHeap := by
  unfold NamedLocationIdentification.parseInto NamedLocationIdentification.parseHeap
  refine .bind .read fun _ => ?_
  refine .bind (.set' (fun o => by simp [NamedLocationIdentification.members, attrOf]) (fun o => by simp [NamedLocationIdentification.members, putAttr, Tree.optInt, Tree.intOr])) fun _ => ?_
  refine .bind .read fun _ => ?_
  refine .bind (.set' (fun o => by simp [NamedLocationIdentification.members, attrOf]) (fun o => by simp [NamedLocationIdentification.members, putAttr, Tree.optInt, Tree.intOr])) fun _ => ?_
  exact .pure

theorem NamedLocationIdentification.shows : Shows NamedLocationIdentification.members NamedLocationIdentification.serialize NamedLocationIdentification.serializeHeap := by
  unfold NamedLocationIdentification.serialize NamedLocationIdentification.serializeHeap
  refine .bind (.putInt (fun o => by simp [NamedLocationIdentification.members, attrOf])) ?_
  exact .putInt (fun o => by simp [NamedLocationIdentification.members, attrOf])

theorem IFFDataSpecification.inits (ex : List (String × Tree)) : Inits (fun self => IFFDataSpecification.initHeap self)
      (([("iffDataRecords", .sc .absent)] : List (String × Tree)) ++ ex)
      (IFFDataSpecification.members {} ++ ex) := by
  unfold IFFDataSpecification.initHeap
  exact .cast (.setOr' .empty (by simp [attrOf_putAttr_isSome, attrOf, IFFDataSpecification.members]))
    (by simp [putAttr, IFFDataSpecification.members, Tree.ints, Tree.objs, Tree.optInt, Tree.optObj, Tree.intOr])

theorem IFFDataSpecification.makesNew : MakesNew IFFDataSpecification.newHeap (.obj (IFFDataSpecification.members IFFDataSpecification.init)) :=
  .new (.cast (IFFDataSpecification.inits []) (List.append_nil _))

theorem IFFDataSpecification.refines : Refines IFFDataSpecification.members IFFDataSpecification.parseInto IFFDataSpecification.parseHeap := by
  unfold IFFDataSpecification.parseInto IFFDataSpecification.parseHeap
  refine .bind .read fun _ => ?_
  refine .bind (.objs IFFData.makesNew IFFData.refines (fun o => by simp [IFFDataSpecification.members, attrOf]) (fun o v => by simp [IFFDataSpecification.members, putAttr, Tree.optInt, Tree.intOr])) fun _ => ?_
  exact .pure

theorem IFFDataSpecification.shows : Shows IFFDataSpecification.members IFFDataSpecification.serialize IFFDataSpecification.serializeHeap := by
  unfold IFFDataSpecification.serialize IFFDataSpecification.serializeHeap
  refine .bind (.lenObjs (ts := IFFData.members) (fun o => by simp [IFFDataSpecification.members, attrOf])) ?_
  exact .eachObj IFFData.shows (fun o => by simp [IFFDataSpecification.members, attrOf])

theorem OwnershipStatus.inits (ex : List (String × Tree)) : Inits (fun self => OwnershipStatus.initHeap self)
      (([("entityId", .sc .absent), ("ownershipStatus", .sc .absent), ("padding", .sc .absent)] : List (String × Tree)) ++ ex)
      (OwnershipStatus.members {} ++ ex) := by
  unfold OwnershipStatus.initHeap
  refine .bind (.setOr' EntityIdentifier.makesNew (by simp [attrOf_putAttr_isSome, attrOf, OwnershipStatus.members])) ?_
  refine .bind (.set' (by simp [attrOf_putAttr_isSome, attrOf, OwnershipStatus.members])) ?_
  exact .cast (.set' (by simp [attrOf_putAttr_isSome, attrOf, OwnershipStatus.members]))
    (by simp [putAttr, OwnershipStatus.members, Tree.ints, Tree.objs, Tree.optInt, Tree.optObj, Tree.intOr])

theorem OwnershipStatus.makesNew : MakesNew OwnershipStatus.newHeap (.obj (OwnershipStatus.members OwnershipStatus.init)) :=
  .new (.cast (OwnershipStatus.inits []) (List.append_nil _))

theorem OwnershipStatus.refines : Refines OwnershipStatus.members OwnershipStatus.parseInto OwnershipStatus.parseHeap := by
  unfold OwnershipStatus.parseInto OwnershipStatus.parseHeap
  refine .bind (.call' EntityIdentifier.refines (fun o => by simp [OwnershipStatus.members, attrOf]) (fun o v => by simp [OwnershipStatus.members, putAttr, Tree.optInt, Tree.intOr])) fun _ => ?_
  refine .bind .read fun _ => ?_
  refine .bind (.set' (fun o => by simp [OwnershipStatus.members, attrOf]) (fun o => by simp [OwnershipStatus.members, putAttr, Tree.optInt, Tree.intOr])) fun _ => ?_
  refine .bind .read fun _ => ?_
  refine .bind (.set' (fun o => by simp [OwnershipStatus.members, attrOf]) (fun o => by simp [OwnershipStatus.members, putAttr, Tree.optInt, Tree.intOr])) fun _ => ?_
  exact .pure

theorem OwnershipStatus.shows : Shows OwnershipStatus.members OwnershipStatus.serialize OwnershipStatus.serializeHeap := by
  unfold OwnershipStatus.serialize OwnershipStatus.serializeHeap
  refine .bind (.call EntityIdentifier.shows (fun o => by simp [OwnershipStatus.members, attrOf])) ?_
  refine .bind (.putInt (fun o => by simp [OwnershipStatus.members, attrOf])) ?_
  exact .putInt (fun o => by simp [OwnershipStatus.members, attrOf])

theorem AttachedParts.inits (ex : List (String × Tree)) : Inits (fun self => AttachedParts.initHeap self)
      (([("recordType", .sc (.int 1)), ("detachedIndicator", .sc .absent), ("partAttachedTo", .sc .absent), ("parameterType", .sc .absent), ("attachedPartType", .sc .absent), ("parameterValue", .sc .absent)] : List (String × Tree)) ++ ex)
      (AttachedParts.members {} ++ ex) := by
  unfold AttachedParts.initHeap
  refine .bind (.set' (by simp [attrOf_putAttr_isSome, attrOf, AttachedParts.members])) ?_
  refine .bind (.set' (by simp [attrOf_putAttr_isSome, attrOf, AttachedParts.members])) ?_
  refine .bind (.set' (by simp [attrOf_putAttr_isSome, attrOf, AttachedParts.members])) ?_
  exact .cast (.setOr' EntityType.makesNew (by simp [attrOf_putAttr_isSome, attrOf, AttachedParts.members]))
    (by simp [putAttr, AttachedParts.members, Tree.ints, Tree.objs, Tree.optInt, Tree.optObj, Tree.intOr])

theorem AttachedParts.makesNew : MakesNew AttachedParts.newHeap (.obj (AttachedParts.members AttachedParts.init)) :=
  .new (.cast (AttachedParts.inits []) (List.append_nil _))

theorem AttachedParts.refines : Refines AttachedParts.members AttachedParts.parseInto AttachedParts.parseHeap := by
  unfold AttachedParts.parseInto AttachedParts.parseHeap
  refine .bind .read fun _ => ?_
  refine .bind (.set' (fun o => by simp [AttachedParts.members, attrOf]) (fun o => by simp [AttachedParts.members, putAttr, Tree.optInt, Tree.intOr])) fun _ => ?_
  refine .bind .read fun _ => ?_
  refine .bind (.set' (fun o => by simp [AttachedParts.members, attrOf]) (fun o => by simp [AttachedParts.members, putAttr, Tree.optInt, Tree.intOr])) fun _ => ?_
  refine .bind .read fun _ => ?_
  refine .bind (.set' (fun o => by simp [AttachedParts.members, attrOf]) (fun o => by simp [AttachedParts.members, putAttr, Tree.optInt, Tree.intOr])) fun _ => ?_
  refine .bind .read fun _ => ?_
  refine .bind (.set' (fun o => by simp [AttachedParts.members, attrOf]) (fun o => by simp [AttachedParts.members, putAttr, Tree.optInt, Tree.intOr])) fun _ => ?_
  refine .bind .read fun _ => ?_
  refine .bind (.set' (fun o => by simp [AttachedParts.members, attrOf]) (fun o => by simp [AttachedParts.members, putAttr, Tree.optInt, Tree.intOr])) fun _ => ?_
  exact .pure

theorem AttachedParts.shows : Shows AttachedParts.members AttachedParts.serialize AttachedParts.serializeHeap := by
  unfold AttachedParts.serialize AttachedParts.serializeHeap
  refine .bind (.putInt (fun o => by simp [AttachedParts.members, attrOf])) ?_
  refine .bind (.putInt (fun o => by simp [AttachedParts.members, attrOf])) ?_
  refine .bind (.putInt (fun o => by simp [AttachedParts.members, attrOf])) ?_
  refine .bind (.putInt (fun o => by simp [AttachedParts.members, attrOf])) ?_
  exact .optAbsent (fun o => by simp [AttachedParts.members, attrOf])

theorem Attribute.inits (ex : List (String × Tree)) : Inits (fun self => Attribute.initHeap self)
      (([("recordType", .sc .absent), ("recordLength", .sc .absent), ("recordSpecificFields", .sc .absent)] : List (String × Tree)) ++ ex)
      (Attribute.members {} ++ ex) := by
  unfold Attribute.initHeap
  refine .bind (.set' (by simp [attrOf_putAttr_isSome, attrOf, Attribute.members])) ?_
  refine .bind (.set' (by simp [attrOf_putAttr_isSome, attrOf, Attribute.members])) ?_
  exact .cast (.set' (by simp [attrOf_putAttr_isSome, attrOf, Attribute.members]))
    (by simp [putAttr, Attribute.members, Tree.ints, Tree.objs, Tree.optInt, Tree.optObj, Tree.intOr])

theorem Attribute.makesNew : MakesNew Attribute.newHeap (.obj (Attribute.members Attribute.init)) :=
  .new (.cast (Attribute.inits []) (List.append_nil _))

theorem Attribute.refines : Refines Attribute.members Attribute.parseInto Attribute.parseHeap := by
  unfold Attribute.parseInto Attribute.parseHeap
  refine .bind .read fun _ => ?_
  refine .bind (.set' (fun o => by simp [Attribute.members, attrOf]) (fun o => by simp [Attribute.members, putAttr, Tree.optInt, Tree.intOr])) fun _ => ?_
  refine .bind .read fun _ => ?_
  refine .bind (.set' (fun o => by simp [Attribute.members, attrOf]) (fun o => by simp [Attribute.members, putAttr, Tree.optInt, Tree.intOr])) fun _ => ?_
  refine .bind .read fun _ => ?_
  refine .bind (.set' (fun o => by simp [Attribute.members, attrOf]) (fun o => by simp [Attribute.members, putAttr, Tree.optInt, Tree.intOr])) fun _ => ?_
  exact .pure

theorem Attribute.shows : Shows Attribute.members Attribute.serialize Attribute.serializeHeap := by
  unfold Attribute.serialize Attribute.serializeHeap
  refine .bind (.putInt (fun o => by simp [Attribute.members, attrOf])) ?_
  refine .bind (.putInt (fun o => by simp [Attribute.members, attrOf])) ?_
  exact .putInt (fun o => by simp [Attribute.members, attrOf])

theorem RecordQuerySpecification.inits (ex : List (String × Tree)) : Inits (fun self => RecordQuerySpecification.initHeap self)
      (([("recordIDs", .sc .absent)] : List (String × Tree)) ++ ex)
      (RecordQuerySpecification.members {} ++ ex) := by
  unfold RecordQuerySpecification.initHeap
  exact .cast (.setOr' .empty (by simp [attrOf_putAttr_isSome, attrOf, RecordQuerySpecification.members]))
    (by simp [putAttr, RecordQuerySpecification.members, Tree.ints, Tree.objs, Tree.optInt, Tree.optObj, Tree.intOr])

theorem RecordQuerySpecification.makesNew : MakesNew RecordQuerySpecification.newHeap (.obj (RecordQuerySpecification.members RecordQuerySpecification.init)) :=
  .new (.cast (RecordQuerySpecification.inits []) (List.append_nil _))

theorem RecordQuerySpecification.refines : Refines RecordQuerySpecification.members RecordQuerySpecification.parseInto RecordQuerySpecification.parseHeap := by
  unfold RecordQuerySpecification.parseInto RecordQuerySpecification.parseHeap
  refine .bind .read fun _ => ?_
  refine .bind (.reads (fun o => by simp [RecordQuerySpecification.members, attrOf]) (fun o v => by simp [RecordQuerySpecification.members, putAttr, Tree.optInt, Tree.intOr])) fun _ => ?_
  exact .pure

theorem RecordQuerySpecification.shows : Shows RecordQuerySpecification.members RecordQuerySpecification.serialize RecordQuerySpecification.serializeHeap := by
  unfold RecordQuerySpecification.serialize RecordQuerySpecification.serializeHeap
  refine .bind (.lenInts (fun o => by simp [RecordQuerySpecification.members, attrOf])) ?_
  exact .eachInts (fun o => by simp [RecordQuerySpecification.members, attrOf])

theorem ArticulatedParts.inits (ex : List (String × Tree)) : Inits (fun self => ArticulatedParts.initHeap self)
      (([("recordType", .sc (.int 0)), ("changeIndicator", .sc .absent), ("partAttachedTo", .sc .absent), ("parameterType", .sc .absent), ("parameterValue", .sc .absent)] : List (String × Tree)) ++ ex)
      (ArticulatedParts.members {} ++ ex) := by
  unfold ArticulatedParts.initHeap
  refine .bind (.set' (by simp [attrOf_putAttr_isSome, attrOf, ArticulatedParts.members])) ?_
  refine .bind (.set' (by simp [attrOf_putAttr_isSome, attrOf, ArticulatedParts.members])) ?_
  refine .bind (.set' (by simp [attrOf_putAttr_isSome, attrOf, ArticulatedParts.members])) ?_
  exact .cast (.set' (by simp [attrOf_putAttr_isSome, attrOf, ArticulatedParts.members]))
    (by simp [putAttr, ArticulatedParts.members, Tree.ints, Tree.objs, Tree.optInt, Tree.optObj, Tree.intOr])

theorem ArticulatedParts.makesNew : MakesNew ArticulatedParts.newHeap (.obj (ArticulatedParts.members ArticulatedParts.init)) :=
  .new (.cast (ArticulatedParts.inits []) (List.append_nil _))

theorem ArticulatedParts.refines : Refines ArticulatedParts.members ArticulatedParts.parseInto ArticulatedParts.parseHeap := by
  unfold ArticulatedParts.parseInto ArticulatedParts.parseHeap
  refine .bind .read fun _ => ?_
  refine .bind (.set' (fun o => by simp [ArticulatedParts.members, attrOf]) (fun o => by simp [ArticulatedParts.members, putAttr, Tree.optInt, Tree.intOr])) fun _ => ?_
  refine .bind .read fun _ => ?_
  refine .bind (.set' (fun o => by simp [ArticulatedParts.members, attrOf]) (fun o => by simp [ArticulatedParts.members, putAttr, Tree.optInt, Tree.intOr])) fun _ => ?_
  refine .bind .read fun _ => ?_
  refine .bind (.set' (fun o => by simp [ArticulatedParts.members, attrOf]) (fun o => by simp [ArticulatedParts.members, putAttr, Tree.optInt, Tree.intOr])) fun _ => ?_
  refine .bind .read fun _ => ?_
  refine .bind (.set' (fun o => by simp [ArticulatedParts.members, attrOf]) (fun o => by simp [ArticulatedParts.members, putAttr, Tree.optInt, Tree.intOr])) fun _ => ?_
  refine .bind .read fun _ => ?_
  refine .bind (.set' (fun o => by simp [ArticulatedParts.members, attrOf]) (fun o => by simp [ArticulatedParts.members, putAttr, Tree.optInt, Tree.intOr])) fun _ => ?_
  exact .pure

theorem ArticulatedParts.shows : Shows ArticulatedParts.members ArticulatedParts.serialize ArticulatedParts.serializeHeap := by
  unfold ArticulatedParts.serialize ArticulatedParts.serializeHeap
  refine .bind (.putInt (fun o => by simp [ArticulatedParts.members, attrOf])) ?_
  refine .bind (.putInt (fun o => by simp [ArticulatedParts.members, attrOf])) ?_
  refine .bind (.putInt (fun o => by simp [ArticulatedParts.members, attrOf])) ?_
  refine .bind (.putInt (fun o => by simp [ArticulatedParts.members, attrOf])) ?_
  exact .putInt (fun o => by simp [ArticulatedParts.members, attrOf])

theorem ObjectType.inits (ex : List (String × Tree)) : Inits (fun self => ObjectType.initHeap self)
      (([("domain", .sc .absent), ("objectKind", .sc .absent), ("category", .sc .absent), ("subcategory", .sc .absent)] : List (String × Tree)) ++ ex)
      (ObjectType.members {} ++ ex) := by
  unfold ObjectType.initHeap
  refine .bind (.set' (by simp [attrOf_putAttr_isSome, attrOf, ObjectType.members])) ?_
  refine .bind (.set' (by simp [attrOf_putAttr_isSome, attrOf, ObjectType.members])) ?_
  refine .bind (.set' (by simp [attrOf_putAttr_isSome, attrOf, ObjectType.members])) ?_
  exact .cast (.set' (by simp [attrOf_putAttr_isSome, attrOf, ObjectType.members]))
    (by simp [putAttr, ObjectType.members, Tree.ints, Tree.objs, Tree.optInt, Tree.optObj, Tree.intOr])

theorem ObjectType.makesNew : MakesNew ObjectType.newHeap (.obj (ObjectType.members ObjectType.init)) :=
  .new (.cast (ObjectType.inits []) (List.append_nil _))

theorem ObjectType.refines : Refines ObjectType.members ObjectType.parseInto ObjectType.parseHeap := by
  unfold ObjectType.parseInto ObjectType.parseHeap
  refine .bind .read fun _ => ?_
  refine .bind (.set' (fun o => by simp [ObjectType.members, attrOf]) (fun o => by simp [ObjectType.members, putAttr, Tree.optInt, Tree.intOr])) fun _ => ?_
  refine .bind .read fun _ => ?_
  refine .bind (.set' (fun o => by simp [ObjectType.members, attrOf]) (fun o => by simp [ObjectType.members, putAttr, Tree.optInt, Tree.intOr])) fun _ => ?_
  refine .bind .read fun _ => ?_
  refine .bind (.set' (fun o => by simp [ObjectType.members, attrOf]) (fun o => by simp [ObjectType.members, putAttr, Tree.optInt, Tree.intOr])) fun _ => ?_
  refine .bind .read fun _ => ?_
  refine .bind (.set' (fun o => by simp [ObjectType.members, attrOf]) (fun o => by simp [ObjectType.members, putAttr, Tree.optInt, Tree.intOr])) fun _ => ?_
  exact .pure

theorem ObjectType.shows : Shows ObjectType.members ObjectType.serialize ObjectType.serializeHeap := by
  unfold ObjectType.serialize ObjectType.serializeHeap
  refine .bind (.putInt (fun o => by simp [ObjectType.members, attrOf])) ?_
  refine .bind (.putInt (fun o => by simp [ObjectType.members, attrOf])) ?_
  refine .bind (.putInt (fun o => by simp [ObjectType.members, attrOf])) ?_
  exact .putInt (fun o => by simp [ObjectType.members, attrOf])

theorem Association.inits (ex : List (String × Tree)) : Inits (fun self => Association.initHeap self)
      (([("associationType", .sc .absent), ("padding4", .sc .absent), ("associatedEntityID", .sc .absent), ("associatedLocation", .sc .absent)] : List (String × Tree)) ++ ex)
      (Association.members {} ++ ex) := by
  unfold Association.initHeap
  refine .bind (.set' (by simp [attrOf_putAttr_isSome, attrOf, Association.members])) ?_
  refine .bind (.set' (by simp [attrOf_putAttr_isSome, attrOf, Association.members])) ?_
  refine .bind (.setOr' EntityIdentifier.makesNew (by simp [attrOf_putAttr_isSome, attrOf, Association.members])) ?_
  exact .cast (.setOr' WorldCoordinates.makesNew (by simp [attrOf_putAttr_isSome, attrOf, Association.members]))
    (by simp [putAttr, Association.members, Tree.ints, Tree.objs, Tree.optInt, Tree.optObj, Tree.intOr])

theorem Association.makesNew : MakesNew Association.newHeap (.obj (Association.members Association.init)) :=
  .new (.cast (Association.inits []) (List.append_nil _))

theorem Association.refines : Refines Association.members Association.parseInto Association.parseHeap := by
  unfold Association.parseInto Association.parseHeap
  refine .bind .read fun _ => ?_
  refine .bind (.set' (fun o => by simp [Association.members, attrOf]) (fun o => by simp [Association.members, putAttr, Tree.optInt, Tree.intOr])) fun _ => ?_
  refine .bind .read fun _ => ?_
  refine .bind (.set' (fun o => by simp [Association.members, attrOf]) (fun o => by simp [Association.members, putAttr, Tree.optInt, Tree.intOr])) fun _ => ?_
  refine .bind (.call' EntityIdentifier.refines (fun o => by simp [Association.members, attrOf]) (fun o v => by simp [Association.members, putAttr, Tree.optInt, Tree.intOr])) fun _ => ?_
  refine .bind (.call' WorldCoordinates.refines (fun o => by simp [Association.members, attrOf]) (fun o v => by simp [Association.members, putAttr, Tree.optInt, Tree.intOr])) fun _ => ?_
  exact .pure

theorem Association.shows : Shows Association.members Association.serialize Association.serializeHeap := by
  unfold Association.serialize Association.serializeHeap
  refine .bind (.putInt (fun o => by simp [Association.members, attrOf])) ?_
  refine .bind (.putInt (fun o => by simp [Association.members, attrOf])) ?_
  refine .bind (.call EntityIdentifier.shows (fun o => by simp [Association.members, attrOf])) ?_
  exact .call WorldCoordinates.shows (fun o => by simp [Association.members, attrOf])

theorem RecordSpecificationElement.inits (ex : List (String × Tree)) : Inits (fun self => RecordSpecificationElement.initHeap self)
      (([("recordID", .sc .absent), ("recordSetSerialNumber", .sc .absent), ("recordLength", .sc .absent), ("recordCount", .sc .absent), ("recordValues", .sc .absent), ("pad4", .sc .absent)] : List (String × Tree)) ++ ex)
      (RecordSpecificationElement.members {} ++ ex) := by
  unfold RecordSpecificationElement.initHeap
  refine .bind (.set' (by simp [attrOf_putAttr_isSome, attrOf, RecordSpecificationElement.members])) ?_
  refine .bind (.set' (by simp [attrOf_putAttr_isSome, attrOf, RecordSpecificationElement.members])) ?_
  refine .bind (.set' (by simp [attrOf_putAttr_isSome, attrOf, RecordSpecificationElement.members])) ?_
  refine .bind (.set' (by simp [attrOf_putAttr_isSome, attrOf, RecordSpecificationElement.members])) ?_
  refine .bind (.set' (by simp [attrOf_putAttr_isSome, attrOf, RecordSpecificationElement.members])) ?_
  exact .cast (.set' (by simp [attrOf_putAttr_isSome, attrOf, RecordSpecificationElement.members]))
    (by simp [putAttr, RecordSpecificationElement.members, Tree.ints, Tree.objs, Tree.optInt, Tree.optObj, Tree.intOr])

theorem RecordSpecificationElement.makesNew : MakesNew RecordSpecificationElement.newHeap (.obj (RecordSpecificationElement.members RecordSpecificationElement.init)) :=
  .new (.cast (RecordSpecificationElement.inits []) (List.append_nil _))

theorem RecordSpecificationElement.refines : Refines RecordSpecificationElement.members RecordSpecificationElement.parseInto RecordSpecificationElement.parseHeap := by
  unfold RecordSpecificationElement.parseInto RecordSpecificationElement.parseHeap
  refine .bind .read fun _ => ?_
  refine .bind (.set' (fun o => by simp [RecordSpecificationElement.members, attrOf]) (fun o => by simp [RecordSpecificationElement.members, putAttr, Tree.optInt, Tree.intOr])) fun _ => ?_
  refine .bind .read fun _ => ?_
  refine .bind (.set' (fun o => by simp [RecordSpecificationElement.members, attrOf]) (fun o => by simp [RecordSpecificationElement.members, putAttr, Tree.optInt, Tree.intOr])) fun _ => ?_
  refine .bind .read fun _ => ?_
  refine .bind (.set' (fun o => by simp [RecordSpecificationElement.members, attrOf]) (fun o => by simp [RecordSpecificationElement.members, putAttr, Tree.optInt, Tree.intOr])) fun _ => ?_
  refine .bind .read fun _ => ?_
  refine .bind (.set' (fun o => by simp [RecordSpecificationElement.members, attrOf]) (fun o => by simp [RecordSpecificationElement.members, putAttr, Tree.optInt, Tree.intOr])) fun _ => ?_
  refine .bind .read fun _ => ?_
  refine .bind (.set' (fun o => by simp [RecordSpecificationElement.members, attrOf]) (fun o => by simp [RecordSpecificationElement.members, putAttr, Tree.optInt, Tree.intOr])) fun _ => ?_
  refine .bind .read fun _ => ?_
  refine .bind (.set' (fun o => by simp [RecordSpecificationElement.members, attrOf]) (fun o => by simp [RecordSpecificationElement.members, putAttr, Tree.optInt, Tree.intOr])) fun _ => ?_
  exact .pure

theorem RecordSpecificationElement.shows : Shows RecordSpecificationElement.members RecordSpecificationElement.serialize RecordSpecificationElement.serializeHeap := by
  unfold RecordSpecificationElement.serialize RecordSpecificationElement.serializeHeap
  refine .bind (.putInt (fun o => by simp [RecordSpecificationElement.members, attrOf])) ?_
  refine .bind (.putInt (fun o => by simp [RecordSpecificationElement.members, attrOf])) ?_
  refine .bind (.putInt (fun o => by simp [RecordSpecificationElement.members, attrOf])) ?_
  refine .bind (.putInt (fun o => by simp [RecordSpecificationElement.members, attrOf])) ?_
  refine .bind (.putInt (fun o => by simp [RecordSpecificationElement.members, attrOf])) ?_
  exact .putInt (fun o => by simp [RecordSpecificationElement.members, attrOf])

theorem AntennaLocation.inits (ex : List (String × Tree)) : Inits (fun self => AntennaLocation.initHeap self)
      (([("antennaLocation", .sc .absent), ("relativeAntennaLocation", .sc .absent)] : List (String × Tree)) ++ ex)
      (AntennaLocation.members {} ++ ex) := by
  unfold AntennaLocation.initHeap
  refine .bind (.setOr' WorldCoordinates.makesNew (by simp [attrOf_putAttr_isSome, attrOf, AntennaLocation.members])) ?_
  exact .cast (.setOr' Vector3Float.makesNew (by simp [attrOf_putAttr_isSome, attrOf, AntennaLocation.members]))
    (by simp [putAttr, AntennaLocation.members, Tree.ints, Tree.objs, Tree.optInt, Tree.optObj, Tree.intOr])

theorem AntennaLocation.makesNew : MakesNew AntennaLocation.newHeap (.obj (AntennaLocation.members AntennaLocation.init)) :=
  .new (.cast (AntennaLocation.inits []) (List.append_nil _))

theorem AntennaLocation.refines : Refines AntennaLocation.members AntennaLocation.parseInto AntennaLocation.parseHeap := by
  unfold AntennaLocation.parseInto AntennaLocation.parseHeap
  refine .bind (.call' WorldCoordinates.refines (fun o => by simp [AntennaLocation.members, attrOf]) (fun o v => by simp [AntennaLocation.members, putAttr, Tree.optInt, Tree.intOr])) fun _ => ?_
  refine .bind (.call' Vector3Float.refines (fun o => by simp [AntennaLocation.members, attrOf]) (fun o v => by simp [AntennaLocation.members, putAttr, Tree.optInt, Tree.intOr])) fun _ => ?_
  exact .pure

theorem AntennaLocation.shows : Shows AntennaLocation.members AntennaLocation.serialize AntennaLocation.serializeHeap := by
  unfold AntennaLocation.serialize AntennaLocation.serializeHeap
  refine .bind (.call WorldCoordinates.shows (fun o => by simp [AntennaLocation.members, attrOf])) ?_
  exact .call Vector3Float.shows (fun o => by simp [AntennaLocation.members, attrOf])

theorem ObjectIdentifier.inits (ex : List (String × Tree)) : Inits (fun self => ObjectIdentifier.initHeap self)
      (([("simulationAddress", .sc .absent), ("objectNumber", .sc .absent)] : List (String × Tree)) ++ ex)
      (ObjectIdentifier.members {} ++ ex) := by
  unfold ObjectIdentifier.initHeap
  refine .bind (.setOr' SimulationAddress.makesNew (by simp [attrOf_putAttr_isSome, attrOf, ObjectIdentifier.members])) ?_
  exact .cast (.set' (by simp [attrOf_putAttr_isSome, attrOf, ObjectIdentifier.members]))
    (by simp [putAttr, ObjectIdentifier.members, Tree.ints, Tree.objs, Tree.optInt, Tree.optObj, Tree.intOr])

theorem ObjectIdentifier.makesNew : MakesNew ObjectIdentifier.newHeap (.obj (ObjectIdentifier.members ObjectIdentifier.init)) :=
  .new (.cast (ObjectIdentifier.inits []) (List.append_nil _))

theorem ObjectIdentifier.refines : Refines ObjectIdentifier.members ObjectIdentifier.parseInto ObjectIdentifier.parseHeap := by
  unfold ObjectIdentifier.parseInto ObjectIdentifier.parseHeap
  refine .bind (.call' SimulationAddress.refines (fun o => by simp [ObjectIdentifier.members, attrOf]) (fun o v => by simp [ObjectIdentifier.members, putAttr, Tree.optInt, Tree.intOr])) fun _ => ?_
  refine .bind .read fun _ => ?_
  refine .bind (.set' (fun o => by simp [ObjectIdentifier.members, attrOf]) (fun o => by simp [ObjectIdentifier.members, putAttr, Tree.optInt, Tree.intOr])) fun _ => ?_
  exact .pure

theorem ObjectIdentifier.shows : Shows ObjectIdentifier.members ObjectIdentifier.serialize ObjectIdentifier.serializeHeap := by
  unfold ObjectIdentifier.serialize ObjectIdentifier.serializeHeap
  refine .bind (.call SimulationAddress.shows (fun o => by simp [ObjectIdentifier.members, attrOf])) ?_
  exact .putInt (fun o => by simp [ObjectIdentifier.members, attrOf])

theorem AggregateIdentifier.inits (ex : List (String × Tree)) : Inits (fun self => AggregateIdentifier.initHeap self)
      (([("simulationAddress", .sc .absent), ("aggregateID", .sc .absent)] : List (String × Tree)) ++ ex)
      (AggregateIdentifier.members {} ++ ex) := by
  unfold AggregateIdentifier.initHeap
  refine .bind (.setOr' SimulationAddress.makesNew (by simp [attrOf_putAttr_isSome, attrOf, AggregateIdentifier.members])) ?_
  exact .cast (.set' (by simp [attrOf_putAttr_isSome, attrOf, AggregateIdentifier.members]))
    (by simp [putAttr, AggregateIdentifier.members, Tree.ints, Tree.objs, Tree.optInt, Tree.optObj, Tree.intOr])

theorem AggregateIdentifier.makesNew : MakesNew AggregateIdentifier.newHeap (.obj (AggregateIdentifier.members AggregateIdentifier.init)) :=
  .new (.cast (AggregateIdentifier.inits []) (List.append_nil _))

theorem AggregateIdentifier.refines : Refines AggregateIdentifier.members AggregateIdentifier.parseInto AggregateIdentifier.parseHeap := by
  unfold AggregateIdentifier.parseInto AggregateIdentifier.parseHeap
  refine .bind (.call' SimulationAddress.refines (fun o => by simp [AggregateIdentifier.members, attrOf]) (fun o v => by simp [AggregateIdentifier.members, putAttr, Tree.optInt, Tree.intOr])) fun _ => ?_
  refine .bind .read fun _ => ?_
  refine .bind (.set' (fun o => by simp [AggregateIdentifier.members, attrOf]) (fun o => by simp [AggregateIdentifier.members, putAttr, Tree.optInt, Tree.intOr])) fun _ => ?_
  exact .pure

theorem AggregateIdentifier.shows : Shows AggregateIdentifier.members AggregateIdentifier.serialize AggregateIdentifier.serializeHeap := by
  unfold AggregateIdentifier.serialize AggregateIdentifier.serializeHeap
  refine .bind (.call SimulationAddress.shows (fun o => by simp [AggregateIdentifier.members, attrOf])) ?_
  exact .putInt (fun o => by simp [AggregateIdentifier.members, attrOf])

theorem FixedDatum.inits (ex : List (String × Tree)) : Inits (fun self => FixedDatum.initHeap self)
      (([("fixedDatumID", .sc .absent), ("fixedDatumValue", .sc .absent)] : List (String × Tree)) ++ ex)
      (FixedDatum.members {} ++ ex) := by
  unfold FixedDatum.initHeap
  refine .bind (.set' (by simp [attrOf_putAttr_isSome, attrOf, FixedDatum.members])) ?_
  exact .cast (.set' (by simp [attrOf_putAttr_isSome, attrOf, FixedDatum.members]))
    (by simp [putAttr, FixedDatum.members, Tree.ints, Tree.objs, Tree.optInt, Tree.optObj, Tree.intOr])

theorem FixedDatum.makesNew : MakesNew FixedDatum.newHeap (.obj (FixedDatum.members FixedDatum.init)) :=
  .new (.cast (FixedDatum.inits []) (List.append_nil _))

theorem FixedDatum.refines : Refines FixedDatum.members FixedDatum.parseInto FixedDatum.parseHeap := by
  unfold FixedDatum.parseInto FixedDatum.parseHeap
  refine .bind .read fun _ => ?_
  refine .bind (.set' (fun o => by simp [FixedDatum.members, attrOf]) (fun o => by simp [FixedDatum.members, putAttr, Tree.optInt, Tree.intOr])) fun _ => ?_
  refine .bind .read fun _ => ?_
  refine .bind (.set' (fun o => by simp [FixedDatum.members, attrOf]) (fun o => by simp [FixedDatum.members, putAttr, Tree.optInt, Tree.intOr])) fun _ => ?_
  exact .pure

theorem FixedDatum.shows : Shows FixedDatum.members FixedDatum.serialize FixedDatum.serializeHeap := by
  unfold FixedDatum.serialize FixedDatum.serializeHeap
  refine .bind (.putInt (fun o => by simp [FixedDatum.members, attrOf])) ?_
  exact .putInt (fun o => by simp [FixedDatum.members, attrOf])

theorem VariableParameter.inits (ex : List (String × Tree)) : Inits (fun self => VariableParameter.initHeap self)
      (([("recordType", .sc .absent), ("variableParameterFields1", .sc .absent), ("variableParameterFields2", .sc .absent), ("variableParameterFields3", .sc .absent), ("variableParameterFields4", .sc .absent)] : List (String × Tree)) ++ ex)
      (VariableParameter.members {} ++ ex) := by
  unfold VariableParameter.initHeap
  refine .bind (.set' (by simp [attrOf_putAttr_isSome, attrOf, VariableParameter.members])) ?_
  refine .bind (.set' (by simp [attrOf_putAttr_isSome, attrOf, VariableParameter.members])) ?_
  refine .bind (.set' (by simp [attrOf_putAttr_isSome, attrOf, VariableParameter.members])) ?_
  refine .bind (.set' (by simp [attrOf_putAttr_isSome, attrOf, VariableParameter.members])) ?_
  exact .cast (.set' (by simp [attrOf_putAttr_isSome, attrOf, VariableParameter.members]))
    (by simp [putAttr, VariableParameter.members, Tree.ints, Tree.objs, Tree.optInt, Tree.optObj, Tree.intOr])

theorem VariableParameter.makesNew : MakesNew VariableParameter.newHeap (.obj (VariableParameter.members VariableParameter.init)) :=
  .new (.cast (VariableParameter.inits []) (List.append_nil _))

theorem VariableParameter.refines : Refines VariableParameter.members VariableParameter.parseInto VariableParameter.parseHeap := by
  unfold VariableParameter.parseInto VariableParameter.parseHeap
  refine .bind .read fun _ => ?_
  refine .bind (.set' (fun o => by simp [VariableParameter.members, attrOf]) (fun o => by simp [VariableParameter.members, putAttr, Tree.optInt, Tree.intOr])) fun _ => ?_
  refine .bind .read fun _ => ?_
  refine .bind (.set' (fun o => by simp [VariableParameter.members, attrOf]) (fun o => by simp [VariableParameter.members, putAttr, Tree.optInt, Tree.intOr])) fun _ => ?_
  refine .bind .read fun _ => ?_
  refine .bind (.set' (fun o => by simp [VariableParameter.members, attrOf]) (fun o => by simp [VariableParameter.members, putAttr, Tree.optInt, Tree.intOr])) fun _ => ?_
  refine .bind .read fun _ => ?_
  refine .bind (.set' (fun o => by simp [VariableParameter.members, attrOf]) (fun o => by simp [VariableParameter.members, putAttr, Tree.optInt, Tree.intOr])) fun _ => ?_
  refine .bind .read fun _ => ?_
  refine .bind (.set' (fun o => by simp [VariableParameter.members, attrOf]) (fun o => by simp [VariableParameter.members, putAttr, Tree.optInt, Tree.intOr])) fun _ => ?_
  exact .pure

theorem VariableParameter.shows : Shows VariableParameter.members VariableParameter.serialize VariableParameter.serializeHeap := by
  unfold VariableParameter.serialize VariableParameter.serializeHeap
  refine .bind (.putInt (fun o => by simp [VariableParameter.members, attrOf])) ?_
  refine .bind (.putFloat (fun o => by simp [VariableParameter.members, attrOf])) ?_
  refine .bind (.putInt (fun o => by simp [VariableParameter.members, attrOf])) ?_
  refine .bind (.putInt (fun o => by simp [VariableParameter.members, attrOf])) ?_
  exact .putInt (fun o => by simp [VariableParameter.members, attrOf])

theorem ChangeOptions.inits (ex : List (String × Tree)) : Inits (fun self => ChangeOptions.initHeap self)
      ([] ++ ex)
      (ChangeOptions.members {} ++ ex) := by
  unfold ChangeOptions.initHeap
  exact .cast .done (by simp [ChangeOptions.members])

theorem ChangeOptions.makesNew : MakesNew ChangeOptions.newHeap (.obj (ChangeOptions.members ChangeOptions.init)) :=
  .new (.cast (ChangeOptions.inits []) (List.append_nil _))

theorem ChangeOptions.refines : Refines ChangeOptions.members ChangeOptions.parseInto ChangeOptions.parseHeap := by
  unfold ChangeOptions.parseInto ChangeOptions.parseHeap
  exact .pure

theorem ChangeOptions.shows : Shows ChangeOptions.members ChangeOptions.serialize ChangeOptions.serializeHeap := by
  unfold ChangeOptions.serialize ChangeOptions.serializeHeap
  exact .pure

end Dis
