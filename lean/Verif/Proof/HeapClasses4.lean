import Verif.Proof.HeapClasses3
import Verif.Model.Heap4
import Verif.Spec.HeapFields
import Verif.Model.InPlace4

/-!
# Methods on a memory of objects, part 4

Generated by `tools/genheap.py`.
-/

set_option linter.unusedVariables false
set_option linter.unusedSimpArgs false

namespace Dis

theorem CreateEntityPdu.inits (p pf : Int) (ex : List (String × Tree)) : Inits (fun self => CreateEntityPdu.initHeap self)
      (([("protocolVersion", .sc .absent), ("exerciseID", .sc .absent), ("pduType", .sc (.int p)), ("protocolFamily", .sc (.int pf)), ("timestamp", .sc .absent), ("length", .sc .absent)] : List (String × Tree)) ++
      (([("pduStatus", .sc .absent), ("padding", .sc .absent)] : List (String × Tree)) ++
      (([("originatingEntityID", .sc .absent), ("receivingEntityID", .sc .absent)] : List (String × Tree)) ++
      (([("requestID", .sc .absent)] : List (String × Tree)) ++ ex))))
      (CreateEntityPdu.members { pduType := p, protocolFamily := pf } ++ ex) := by
  unfold CreateEntityPdu.initHeap
  refine .bind (SimulationManagementFamilyPdu.inits p pf _) ?_
  exact .cast (.set' (by simp [attrOf_putAttr_isSome, attrOf, CreateEntityPdu.members, SimulationManagementFamilyPdu.members, Pdu.members, PduSuperclass.members]))
    (by simp [putAttr, CreateEntityPdu.members, SimulationManagementFamilyPdu.members, Pdu.members, PduSuperclass.members, Tree.ints, Tree.objs, Tree.optInt, Tree.optObj, Tree.intOr])

theorem CreateEntityPdu.makesNew : MakesNew CreateEntityPdu.newHeap (.obj (CreateEntityPdu.members CreateEntityPdu.init)) :=
  .new (.cast (CreateEntityPdu.inits 11 5 []) (List.append_nil _))

theorem CreateEntityPdu.refines : Refines CreateEntityPdu.members CreateEntityPdu.parseInto CreateEntityPdu.parseHeap := by
  unfold CreateEntityPdu.parseInto CreateEntityPdu.parseHeap
  refine .bind (.super SimulationManagementFamilyPdu.refines (fun _ => rfl) (fun _ _ => rfl)) fun _ => ?_
  refine .bind .read fun _ => ?_
  refine .bind (.set' (fun o => by simp [CreateEntityPdu.members, SimulationManagementFamilyPdu.members, Pdu.members, PduSuperclass.members, attrOf]) (fun o => by simp [CreateEntityPdu.members, SimulationManagementFamilyPdu.members, Pdu.members, PduSuperclass.members, putAttr, Tree.optInt, Tree.intOr])) fun _ => ?_
  exact .pure

theorem CreateEntityPdu.shows : Shows CreateEntityPdu.members CreateEntityPdu.serialize CreateEntityPdu.serializeHeap := by
  unfold CreateEntityPdu.serialize CreateEntityPdu.serializeHeap
  refine .bind (.super SimulationManagementFamilyPdu.shows (fun _ => rfl)) ?_
  exact .putInt (fun o => by simp [CreateEntityPdu.members, SimulationManagementFamilyPdu.members, Pdu.members, PduSuperclass.members, attrOf])

theorem RadioCommunicationsFamilyPdu.inits (p pf : Int) (ex : List (String × Tree)) : Inits (fun self => RadioCommunicationsFamilyPdu.initHeap self)
      (([("protocolVersion", .sc .absent), ("exerciseID", .sc .absent), ("pduType", .sc (.int p)), ("protocolFamily", .sc (.int pf)), ("timestamp", .sc .absent), ("length", .sc .absent)] : List (String × Tree)) ++
      (([("pduStatus", .sc .absent), ("padding", .sc .absent)] : List (String × Tree)) ++
      ([] ++ ex)))
      (RadioCommunicationsFamilyPdu.members { pduType := p, protocolFamily := pf } ++ ex) := by
  unfold RadioCommunicationsFamilyPdu.initHeap
  exact .cast (Pdu.inits p pf _)
    (by simp [putAttr, RadioCommunicationsFamilyPdu.members, Pdu.members, PduSuperclass.members, Tree.ints, Tree.objs, Tree.optInt, Tree.optObj, Tree.intOr])

theorem RadioCommunicationsFamilyPdu.refines : Refines RadioCommunicationsFamilyPdu.members RadioCommunicationsFamilyPdu.parseInto RadioCommunicationsFamilyPdu.parseHeap := by
  unfold RadioCommunicationsFamilyPdu.parseInto RadioCommunicationsFamilyPdu.parseHeap
  refine .bind (.super Pdu.refines (fun _ => rfl) (fun _ _ => rfl)) fun _ => ?_
  exact .pure

theorem RadioCommunicationsFamilyPdu.shows : Shows RadioCommunicationsFamilyPdu.members RadioCommunicationsFamilyPdu.serialize RadioCommunicationsFamilyPdu.serializeHeap := by
  unfold RadioCommunicationsFamilyPdu.serialize RadioCommunicationsFamilyPdu.serializeHeap
  exact .super Pdu.shows (fun _ => rfl)

theorem IntercomSignalPdu.inits (p pf : Int) (ex : List (String × Tree)) : Inits (fun self => IntercomSignalPdu.initHeap self)
      (([("protocolVersion", .sc .absent), ("exerciseID", .sc .absent), ("pduType", .sc (.int p)), ("protocolFamily", .sc (.int pf)), ("timestamp", .sc .absent), ("length", .sc .absent)] : List (String × Tree)) ++
      (([("pduStatus", .sc .absent), ("padding", .sc .absent)] : List (String × Tree)) ++
      ([] ++
      (([("entityID", .sc .absent), ("communicationsDeviceID", .sc .absent), ("encodingScheme", .sc .absent), ("tdlType", .sc .absent), ("sampleRate", .sc .absent), ("samples", .sc .absent), ("data", .sc .absent)] : List (String × Tree)) ++ ex))))
      (IntercomSignalPdu.members { pduType := p, protocolFamily := pf } ++ ex) := by
  unfold IntercomSignalPdu.initHeap
  refine .bind (RadioCommunicationsFamilyPdu.inits p pf _) ?_
  refine .bind (.setOr' EntityIdentifier.makesNew (by simp [attrOf_putAttr_isSome, attrOf, IntercomSignalPdu.members, RadioCommunicationsFamilyPdu.members, Pdu.members, PduSuperclass.members])) ?_
  refine .bind (.set' (by simp [attrOf_putAttr_isSome, attrOf, IntercomSignalPdu.members, RadioCommunicationsFamilyPdu.members, Pdu.members, PduSuperclass.members])) ?_
  refine .bind (.set' (by simp [attrOf_putAttr_isSome, attrOf, IntercomSignalPdu.members, RadioCommunicationsFamilyPdu.members, Pdu.members, PduSuperclass.members])) ?_
  refine .bind (.set' (by simp [attrOf_putAttr_isSome, attrOf, IntercomSignalPdu.members, RadioCommunicationsFamilyPdu.members, Pdu.members, PduSuperclass.members])) ?_
  refine .bind (.set' (by simp [attrOf_putAttr_isSome, attrOf, IntercomSignalPdu.members, RadioCommunicationsFamilyPdu.members, Pdu.members, PduSuperclass.members])) ?_
  refine .bind (.set' (by simp [attrOf_putAttr_isSome, attrOf, IntercomSignalPdu.members, RadioCommunicationsFamilyPdu.members, Pdu.members, PduSuperclass.members])) ?_
  exact .cast (.setOr' .empty (by simp [attrOf_putAttr_isSome, attrOf, IntercomSignalPdu.members, RadioCommunicationsFamilyPdu.members, Pdu.members, PduSuperclass.members]))
    (by simp [putAttr, IntercomSignalPdu.members, RadioCommunicationsFamilyPdu.members, Pdu.members, PduSuperclass.members, Tree.ints, Tree.objs, Tree.optInt, Tree.optObj, Tree.intOr])

theorem IntercomSignalPdu.makesNew : MakesNew IntercomSignalPdu.newHeap (.obj (IntercomSignalPdu.members IntercomSignalPdu.init)) :=
  .new (.cast (IntercomSignalPdu.inits 31 4 []) (List.append_nil _))

theorem IntercomSignalPdu.refines : Refines IntercomSignalPdu.members IntercomSignalPdu.parseInto IntercomSignalPdu.parseHeap := by
  unfold IntercomSignalPdu.parseInto IntercomSignalPdu.parseHeap
  refine .bind (.super RadioCommunicationsFamilyPdu.refines (fun _ => rfl) (fun _ _ => rfl)) fun _ => ?_
  refine .bind (.call' EntityIdentifier.refines (fun o => by simp [IntercomSignalPdu.members, RadioCommunicationsFamilyPdu.members, Pdu.members, PduSuperclass.members, attrOf]) (fun o v => by simp [IntercomSignalPdu.members, RadioCommunicationsFamilyPdu.members, Pdu.members, PduSuperclass.members, putAttr, Tree.optInt, Tree.intOr])) fun _ => ?_
  refine .bind .read fun _ => ?_
  refine .bind (.set' (fun o => by simp [IntercomSignalPdu.members, RadioCommunicationsFamilyPdu.members, Pdu.members, PduSuperclass.members, attrOf]) (fun o => by simp [IntercomSignalPdu.members, RadioCommunicationsFamilyPdu.members, Pdu.members, PduSuperclass.members, putAttr, Tree.optInt, Tree.intOr])) fun _ => ?_
  refine .bind .read fun _ => ?_
  refine .bind (.set' (fun o => by simp [IntercomSignalPdu.members, RadioCommunicationsFamilyPdu.members, Pdu.members, PduSuperclass.members, attrOf]) (fun o => by simp [IntercomSignalPdu.members, RadioCommunicationsFamilyPdu.members, Pdu.members, PduSuperclass.members, putAttr, Tree.optInt, Tree.intOr])) fun _ => ?_
  refine .bind .read fun _ => ?_
  refine .bind (.set' (fun o => by simp [IntercomSignalPdu.members, RadioCommunicationsFamilyPdu.members, Pdu.members, PduSuperclass.members, attrOf]) (fun o => by simp [IntercomSignalPdu.members, RadioCommunicationsFamilyPdu.members, Pdu.members, PduSuperclass.members, putAttr, Tree.optInt, Tree.intOr])) fun _ => ?_
  refine .bind .read fun _ => ?_
  refine .bind (.set' (fun o => by simp [IntercomSignalPdu.members, RadioCommunicationsFamilyPdu.members, Pdu.members, PduSuperclass.members, attrOf]) (fun o => by simp [IntercomSignalPdu.members, RadioCommunicationsFamilyPdu.members, Pdu.members, PduSuperclass.members, putAttr, Tree.optInt, Tree.intOr])) fun _ => ?_
  refine .bind .read fun _ => ?_
  refine .bind .read fun _ => ?_
  refine .bind (.set' (fun o => by simp [IntercomSignalPdu.members, RadioCommunicationsFamilyPdu.members, Pdu.members, PduSuperclass.members, attrOf]) (fun o => by simp [IntercomSignalPdu.members, RadioCommunicationsFamilyPdu.members, Pdu.members, PduSuperclass.members, putAttr, Tree.optInt, Tree.intOr])) fun _ => ?_
  refine .bind .raises fun _ => ?_
  exact .pure

theorem IntercomSignalPdu.shows : Shows IntercomSignalPdu.members IntercomSignalPdu.serialize IntercomSignalPdu.serializeHeap := by
  unfold IntercomSignalPdu.serialize IntercomSignalPdu.serializeHeap
  refine .bind (.super RadioCommunicationsFamilyPdu.shows (fun _ => rfl)) ?_
  refine .bind (.call EntityIdentifier.shows (fun o => by simp [IntercomSignalPdu.members, RadioCommunicationsFamilyPdu.members, Pdu.members, PduSuperclass.members, attrOf])) ?_
  refine .bind (.putInt (fun o => by simp [IntercomSignalPdu.members, RadioCommunicationsFamilyPdu.members, Pdu.members, PduSuperclass.members, attrOf])) ?_
  refine .bind (.putInt (fun o => by simp [IntercomSignalPdu.members, RadioCommunicationsFamilyPdu.members, Pdu.members, PduSuperclass.members, attrOf])) ?_
  refine .bind (.putInt (fun o => by simp [IntercomSignalPdu.members, RadioCommunicationsFamilyPdu.members, Pdu.members, PduSuperclass.members, attrOf])) ?_
  refine .bind (.putInt (fun o => by simp [IntercomSignalPdu.members, RadioCommunicationsFamilyPdu.members, Pdu.members, PduSuperclass.members, attrOf])) ?_
  refine .bind (.lenInts (k := fun n => write_unsigned_short (n * 8)) (fun o => by simp [IntercomSignalPdu.members, RadioCommunicationsFamilyPdu.members, Pdu.members, PduSuperclass.members, attrOf])) ?_
  refine .bind (.putInt (fun o => by simp [IntercomSignalPdu.members, RadioCommunicationsFamilyPdu.members, Pdu.members, PduSuperclass.members, attrOf])) ?_
  exact .eachRaises (fun o => by simp [IntercomSignalPdu.members, RadioCommunicationsFamilyPdu.members, Pdu.members, PduSuperclass.members, attrOf])

theorem RemoveEntityPdu.inits (p pf : Int) (ex : List (String × Tree)) : Inits (fun self => RemoveEntityPdu.initHeap self)
      (([("protocolVersion", .sc .absent), ("exerciseID", .sc .absent), ("pduType", .sc (.int p)), ("protocolFamily", .sc (.int pf)), ("timestamp", .sc .absent), ("length", .sc .absent)] : List (String × Tree)) ++
      (([("pduStatus", .sc .absent), ("padding", .sc .absent)] : List (String × Tree)) ++
      (([("originatingEntityID", .sc .absent), ("receivingEntityID", .sc .absent)] : List (String × Tree)) ++
      (([("requestID", .sc .absent)] : List (String × Tree)) ++ ex))))
      (RemoveEntityPdu.members { pduType := p, protocolFamily := pf } ++ ex) := by
  unfold RemoveEntityPdu.initHeap
  refine .bind (SimulationManagementFamilyPdu.inits p pf _) ?_
  exact .cast (.set' (by simp [attrOf_putAttr_isSome, attrOf, RemoveEntityPdu.members, SimulationManagementFamilyPdu.members, Pdu.members, PduSuperclass.members]))
    (by simp [putAttr, RemoveEntityPdu.members, SimulationManagementFamilyPdu.members, Pdu.members, PduSuperclass.members, Tree.ints, Tree.objs, Tree.optInt, Tree.optObj, Tree.intOr])

theorem RemoveEntityPdu.makesNew : MakesNew RemoveEntityPdu.newHeap (.obj (RemoveEntityPdu.members RemoveEntityPdu.init)) :=
  .new (.cast (RemoveEntityPdu.inits 12 5 []) (List.append_nil _))

theorem RemoveEntityPdu.refines : Refines RemoveEntityPdu.members RemoveEntityPdu.parseInto RemoveEntityPdu.parseHeap := by
  unfold RemoveEntityPdu.parseInto RemoveEntityPdu.parseHeap
  refine .bind (.super SimulationManagementFamilyPdu.refines (fun _ => rfl) (fun _ _ => rfl)) fun _ => ?_
  refine .bind .read fun _ => ?_
  refine .bind (.set' (fun o => by simp [RemoveEntityPdu.members, SimulationManagementFamilyPdu.members, Pdu.members, PduSuperclass.members, attrOf]) (fun o => by simp [RemoveEntityPdu.members, SimulationManagementFamilyPdu.members, Pdu.members, PduSuperclass.members, putAttr, Tree.optInt, Tree.intOr])) fun _ => ?_
  exact .pure

theorem RemoveEntityPdu.shows : Shows RemoveEntityPdu.members RemoveEntityPdu.serialize RemoveEntityPdu.serializeHeap := by
  unfold RemoveEntityPdu.serialize RemoveEntityPdu.serializeHeap
  refine .bind (.super SimulationManagementFamilyPdu.shows (fun _ => rfl)) ?_
  exact .putInt (fun o => by simp [RemoveEntityPdu.members, SimulationManagementFamilyPdu.members, Pdu.members, PduSuperclass.members, attrOf])

theorem ResupplyReceivedPdu.inits (p pf : Int) (ex : List (String × Tree)) : Inits (fun self => ResupplyReceivedPdu.initHeap self)
      (([("protocolVersion", .sc .absent), ("exerciseID", .sc .absent), ("pduType", .sc (.int p)), ("protocolFamily", .sc (.int pf)), ("timestamp", .sc .absent), ("length", .sc .absent)] : List (String × Tree)) ++
      (([("pduStatus", .sc .absent), ("padding", .sc .absent)] : List (String × Tree)) ++
      ([] ++
      (([("receivingEntityID", .sc .absent), ("supplyingEntityID", .sc .absent), ("padding1", .sc .absent), ("padding2", .sc .absent), ("supplies", .sc .absent)] : List (String × Tree)) ++ ex))))
      (ResupplyReceivedPdu.members { pduType := p, protocolFamily := pf } ++ ex) := by
  unfold ResupplyReceivedPdu.initHeap
  refine .bind (LogisticsFamilyPdu.inits p pf _) ?_
  refine .bind (.setOr' EntityIdentifier.makesNew (by simp [attrOf_putAttr_isSome, attrOf, ResupplyReceivedPdu.members, LogisticsFamilyPdu.members, Pdu.members, PduSuperclass.members])) ?_
  refine .bind (.setOr' EntityIdentifier.makesNew (by simp [attrOf_putAttr_isSome, attrOf, ResupplyReceivedPdu.members, LogisticsFamilyPdu.members, Pdu.members, PduSuperclass.members])) ?_
  refine .bind (.set' (by simp [attrOf_putAttr_isSome, attrOf, ResupplyReceivedPdu.members, LogisticsFamilyPdu.members, Pdu.members, PduSuperclass.members])) ?_
  refine .bind (.set' (by simp [attrOf_putAttr_isSome, attrOf, ResupplyReceivedPdu.members, LogisticsFamilyPdu.members, Pdu.members, PduSuperclass.members])) ?_
  exact .cast (.setOr' .empty (by simp [attrOf_putAttr_isSome, attrOf, ResupplyReceivedPdu.members, LogisticsFamilyPdu.members, Pdu.members, PduSuperclass.members]))
    (by simp [putAttr, ResupplyReceivedPdu.members, LogisticsFamilyPdu.members, Pdu.members, PduSuperclass.members, Tree.ints, Tree.objs, Tree.optInt, Tree.optObj, Tree.intOr])

theorem ResupplyReceivedPdu.makesNew : MakesNew ResupplyReceivedPdu.newHeap (.obj (ResupplyReceivedPdu.members ResupplyReceivedPdu.init)) :=
  .new (.cast (ResupplyReceivedPdu.inits 7 3 []) (List.append_nil _))

theorem ResupplyReceivedPdu.refines : Refines ResupplyReceivedPdu.members ResupplyReceivedPdu.parseInto ResupplyReceivedPdu.parseHeap := by
  unfold ResupplyReceivedPdu.parseInto ResupplyReceivedPdu.parseHeap
  refine .bind (.super LogisticsFamilyPdu.refines (fun _ => rfl) (fun _ _ => rfl)) fun _ => ?_
  refine .bind (.call' EntityIdentifier.refines (fun o => by simp [ResupplyReceivedPdu.members, LogisticsFamilyPdu.members, Pdu.members, PduSuperclass.members, attrOf]) (fun o v => by simp [ResupplyReceivedPdu.members, LogisticsFamilyPdu.members, Pdu.members, PduSuperclass.members, putAttr, Tree.optInt, Tree.intOr])) fun _ => ?_
  refine .bind (.call' EntityIdentifier.refines (fun o => by simp [ResupplyReceivedPdu.members, LogisticsFamilyPdu.members, Pdu.members, PduSuperclass.members, attrOf]) (fun o v => by simp [ResupplyReceivedPdu.members, LogisticsFamilyPdu.members, Pdu.members, PduSuperclass.members, putAttr, Tree.optInt, Tree.intOr])) fun _ => ?_
  refine .bind .read fun _ => ?_
  refine .bind .read fun _ => ?_
  refine .bind (.set' (fun o => by simp [ResupplyReceivedPdu.members, LogisticsFamilyPdu.members, Pdu.members, PduSuperclass.members, attrOf]) (fun o => by simp [ResupplyReceivedPdu.members, LogisticsFamilyPdu.members, Pdu.members, PduSuperclass.members, putAttr, Tree.optInt, Tree.intOr])) fun _ => ?_
  refine .bind .read fun _ => ?_
  refine .bind (.set' (fun o => by simp [ResupplyReceivedPdu.members, LogisticsFamilyPdu.members, Pdu.members, PduSuperclass.members, attrOf]) (fun o => by simp [ResupplyReceivedPdu.members, LogisticsFamilyPdu.members, Pdu.members, PduSuperclass.members, putAttr, Tree.optInt, Tree.intOr])) fun _ => ?_
  refine .bind .raises fun _ => ?_
  exact .pure

theorem ResupplyReceivedPdu.shows : Shows ResupplyReceivedPdu.members ResupplyReceivedPdu.serialize ResupplyReceivedPdu.serializeHeap := by
  unfold ResupplyReceivedPdu.serialize ResupplyReceivedPdu.serializeHeap
  refine .bind (.super LogisticsFamilyPdu.shows (fun _ => rfl)) ?_
  refine .bind (.call EntityIdentifier.shows (fun o => by simp [ResupplyReceivedPdu.members, LogisticsFamilyPdu.members, Pdu.members, PduSuperclass.members, attrOf])) ?_
  refine .bind (.call EntityIdentifier.shows (fun o => by simp [ResupplyReceivedPdu.members, LogisticsFamilyPdu.members, Pdu.members, PduSuperclass.members, attrOf])) ?_
  refine .bind (.lenObjs (ts := SupplyQuantity.members) (fun o => by simp [ResupplyReceivedPdu.members, LogisticsFamilyPdu.members, Pdu.members, PduSuperclass.members, attrOf])) ?_
  refine .bind (.putInt (fun o => by simp [ResupplyReceivedPdu.members, LogisticsFamilyPdu.members, Pdu.members, PduSuperclass.members, attrOf])) ?_
  refine .bind (.putInt (fun o => by simp [ResupplyReceivedPdu.members, LogisticsFamilyPdu.members, Pdu.members, PduSuperclass.members, attrOf])) ?_
  exact .eachObj SupplyQuantity.shows (fun o => by simp [ResupplyReceivedPdu.members, LogisticsFamilyPdu.members, Pdu.members, PduSuperclass.members, attrOf])

theorem WarfareFamilyPdu.inits (p pf : Int) (ex : List (String × Tree)) : Inits (fun self => WarfareFamilyPdu.initHeap self)
      (([("protocolVersion", .sc .absent), ("exerciseID", .sc .absent), ("pduType", .sc (.int p)), ("protocolFamily", .sc (.int pf)), ("timestamp", .sc .absent), ("length", .sc .absent)] : List (String × Tree)) ++
      (([("pduStatus", .sc .absent), ("padding", .sc .absent)] : List (String × Tree)) ++
      (([("firingEntityID", .sc .absent), ("targetEntityID", .sc .absent)] : List (String × Tree)) ++ ex)))
      (WarfareFamilyPdu.members { pduType := p, protocolFamily := pf } ++ ex) := by
  unfold WarfareFamilyPdu.initHeap
  refine .bind (Pdu.inits p pf _) ?_
  refine .bind (.setOr' EntityIdentifier.makesNew (by simp [attrOf_putAttr_isSome, attrOf, WarfareFamilyPdu.members, Pdu.members, PduSuperclass.members])) ?_
  exact .cast (.setOr' EntityIdentifier.makesNew (by simp [attrOf_putAttr_isSome, attrOf, WarfareFamilyPdu.members, Pdu.members, PduSuperclass.members]))
    (by simp [putAttr, WarfareFamilyPdu.members, Pdu.members, PduSuperclass.members, Tree.ints, Tree.objs, Tree.optInt, Tree.optObj, Tree.intOr])

theorem WarfareFamilyPdu.refines : Refines WarfareFamilyPdu.members WarfareFamilyPdu.parseInto WarfareFamilyPdu.parseHeap := by
  unfold WarfareFamilyPdu.parseInto WarfareFamilyPdu.parseHeap
  refine .bind (.super Pdu.refines (fun _ => rfl) (fun _ _ => rfl)) fun _ => ?_
  refine .bind (.call' EntityIdentifier.refines (fun o => by simp [WarfareFamilyPdu.members, Pdu.members, PduSuperclass.members, attrOf]) (fun o v => by simp [WarfareFamilyPdu.members, Pdu.members, PduSuperclass.members, putAttr, Tree.optInt, Tree.intOr])) fun _ => ?_
  refine .bind (.call' EntityIdentifier.refines (fun o => by simp [WarfareFamilyPdu.members, Pdu.members, PduSuperclass.members, attrOf]) (fun o v => by simp [WarfareFamilyPdu.members, Pdu.members, PduSuperclass.members, putAttr, Tree.optInt, Tree.intOr])) fun _ => ?_
  exact .pure

theorem WarfareFamilyPdu.shows : Shows WarfareFamilyPdu.members WarfareFamilyPdu.serialize WarfareFamilyPdu.serializeHeap := by
  unfold WarfareFamilyPdu.serialize WarfareFamilyPdu.serializeHeap
  refine .bind (.super Pdu.shows (fun _ => rfl)) ?_
  refine .bind (.call EntityIdentifier.shows (fun o => by simp [WarfareFamilyPdu.members, Pdu.members, PduSuperclass.members, attrOf])) ?_
  exact .call EntityIdentifier.shows (fun o => by simp [WarfareFamilyPdu.members, Pdu.members, PduSuperclass.members, attrOf])

theorem CollisionElasticPdu.inits (p pf : Int) (ex : List (String × Tree)) : Inits (fun self => CollisionElasticPdu.initHeap self)
      (([("protocolVersion", .sc .absent), ("exerciseID", .sc .absent), ("pduType", .sc (.int p)), ("protocolFamily", .sc (.int pf)), ("timestamp", .sc .absent), ("length", .sc .absent)] : List (String × Tree)) ++
      (([("pduStatus", .sc .absent), ("padding", .sc .absent)] : List (String × Tree)) ++
      ([] ++
      (([("issuingEntityID", .sc .absent), ("collidingEntityID", .sc .absent), ("collisionEventID", .sc .absent), ("pad", .sc .absent), ("contactVelocity", .sc .absent), ("mass", .sc .absent), ("locationOfImpact", .sc .absent), ("collisionIntermediateResultXX", .sc .absent), ("collisionIntermediateResultXY", .sc .absent), ("collisionIntermediateResultXZ", .sc .absent), ("collisionIntermediateResultYY", .sc .absent), ("collisionIntermediateResultYZ", .sc .absent), ("collisionIntermediateResultZZ", .sc .absent), ("unitSurfaceNormal", .sc .absent), ("coefficientOfRestitution", .sc .absent)] : List (String × Tree)) ++ ex))))
      (CollisionElasticPdu.members { pduType := p, protocolFamily := pf } ++ ex) := by
  unfold CollisionElasticPdu.initHeap
  refine .bind (EntityInformationFamilyPdu.inits p pf _) ?_
  refine .bind (.setOr' EntityIdentifier.makesNew (by simp [attrOf_putAttr_isSome, attrOf, CollisionElasticPdu.members, EntityInformationFamilyPdu.members, Pdu.members, PduSuperclass.members])) ?_
  refine .bind (.setOr' EntityIdentifier.makesNew (by simp [attrOf_putAttr_isSome, attrOf, CollisionElasticPdu.members, EntityInformationFamilyPdu.members, Pdu.members, PduSuperclass.members])) ?_
  refine .bind (.setOr' EventIdentifier.makesNew (by simp [attrOf_putAttr_isSome, attrOf, CollisionElasticPdu.members, EntityInformationFamilyPdu.members, Pdu.members, PduSuperclass.members])) ?_
  refine .bind (.set' (by simp [attrOf_putAttr_isSome, attrOf, CollisionElasticPdu.members, EntityInformationFamilyPdu.members, Pdu.members, PduSuperclass.members])) ?_
  refine .bind (.setOr' Vector3Float.makesNew (by simp [attrOf_putAttr_isSome, attrOf, CollisionElasticPdu.members, EntityInformationFamilyPdu.members, Pdu.members, PduSuperclass.members])) ?_
  refine .bind (.set' (by simp [attrOf_putAttr_isSome, attrOf, CollisionElasticPdu.members, EntityInformationFamilyPdu.members, Pdu.members, PduSuperclass.members])) ?_
  refine .bind (.setOr' Vector3Float.makesNew (by simp [attrOf_putAttr_isSome, attrOf, CollisionElasticPdu.members, EntityInformationFamilyPdu.members, Pdu.members, PduSuperclass.members])) ?_
  refine .bind (.set' (by simp [attrOf_putAttr_isSome, attrOf, CollisionElasticPdu.members, EntityInformationFamilyPdu.members, Pdu.members, PduSuperclass.members])) ?_
  refine .bind (.set' (by simp [attrOf_putAttr_isSome, attrOf, CollisionElasticPdu.members, EntityInformationFamilyPdu.members, Pdu.members, PduSuperclass.members])) ?_
  refine .bind (.set' (by simp [attrOf_putAttr_isSome, attrOf, CollisionElasticPdu.members, EntityInformationFamilyPdu.members, Pdu.members, PduSuperclass.members])) ?_
  refine .bind (.set' (by simp [attrOf_putAttr_isSome, attrOf, CollisionElasticPdu.members, EntityInformationFamilyPdu.members, Pdu.members, PduSuperclass.members])) ?_
  refine .bind (.set' (by simp [attrOf_putAttr_isSome, attrOf, CollisionElasticPdu.members, EntityInformationFamilyPdu.members, Pdu.members, PduSuperclass.members])) ?_
  refine .bind (.set' (by simp [attrOf_putAttr_isSome, attrOf, CollisionElasticPdu.members, EntityInformationFamilyPdu.members, Pdu.members, PduSuperclass.members])) ?_
  refine .bind (.setOr' Vector3Float.makesNew (by simp [attrOf_putAttr_isSome, attrOf, CollisionElasticPdu.members, EntityInformationFamilyPdu.members, Pdu.members, PduSuperclass.members])) ?_
  exact .cast (.set' (by simp [attrOf_putAttr_isSome, attrOf, CollisionElasticPdu.members, EntityInformationFamilyPdu.members, Pdu.members, PduSuperclass.members]))
    (by simp [putAttr, CollisionElasticPdu.members, EntityInformationFamilyPdu.members, Pdu.members, PduSuperclass.members, Tree.ints, Tree.objs, Tree.optInt, Tree.optObj, Tree.intOr])

theorem CollisionElasticPdu.makesNew : MakesNew CollisionElasticPdu.newHeap (.obj (CollisionElasticPdu.members CollisionElasticPdu.init)) :=
  .new (.cast (CollisionElasticPdu.inits 66 1 []) (List.append_nil _))

theorem CollisionElasticPdu.refines : Refines CollisionElasticPdu.members CollisionElasticPdu.parseInto CollisionElasticPdu.parseHeap := by
  unfold CollisionElasticPdu.parseInto CollisionElasticPdu.parseHeap
  refine .bind (.super EntityInformationFamilyPdu.refines (fun _ => rfl) (fun _ _ => rfl)) fun _ => ?_
  refine .bind (.call' EntityIdentifier.refines (fun o => by simp [CollisionElasticPdu.members, EntityInformationFamilyPdu.members, Pdu.members, PduSuperclass.members, attrOf]) (fun o v => by simp [CollisionElasticPdu.members, EntityInformationFamilyPdu.members, Pdu.members, PduSuperclass.members, putAttr, Tree.optInt, Tree.intOr])) fun _ => ?_
  refine .bind (.call' EntityIdentifier.refines (fun o => by simp [CollisionElasticPdu.members, EntityInformationFamilyPdu.members, Pdu.members, PduSuperclass.members, attrOf]) (fun o v => by simp [CollisionElasticPdu.members, EntityInformationFamilyPdu.members, Pdu.members, PduSuperclass.members, putAttr, Tree.optInt, Tree.intOr])) fun _ => ?_
  refine .bind (.call' EventIdentifier.refines (fun o => by simp [CollisionElasticPdu.members, EntityInformationFamilyPdu.members, Pdu.members, PduSuperclass.members, attrOf]) (fun o v => by simp [CollisionElasticPdu.members, EntityInformationFamilyPdu.members, Pdu.members, PduSuperclass.members, putAttr, Tree.optInt, Tree.intOr])) fun _ => ?_
  refine .bind .read fun _ => ?_
  refine .bind (.set' (fun o => by simp [CollisionElasticPdu.members, EntityInformationFamilyPdu.members, Pdu.members, PduSuperclass.members, attrOf]) (fun o => by simp [CollisionElasticPdu.members, EntityInformationFamilyPdu.members, Pdu.members, PduSuperclass.members, putAttr, Tree.optInt, Tree.intOr])) fun _ => ?_
  refine .bind (.call' Vector3Float.refines (fun o => by simp [CollisionElasticPdu.members, EntityInformationFamilyPdu.members, Pdu.members, PduSuperclass.members, attrOf]) (fun o v => by simp [CollisionElasticPdu.members, EntityInformationFamilyPdu.members, Pdu.members, PduSuperclass.members, putAttr, Tree.optInt, Tree.intOr])) fun _ => ?_
  refine .bind .read fun _ => ?_
  refine .bind (.set' (fun o => by simp [CollisionElasticPdu.members, EntityInformationFamilyPdu.members, Pdu.members, PduSuperclass.members, attrOf]) (fun o => by simp [CollisionElasticPdu.members, EntityInformationFamilyPdu.members, Pdu.members, PduSuperclass.members, putAttr, Tree.optInt, Tree.intOr])) fun _ => ?_
  refine .bind (.call' Vector3Float.refines (fun o => by simp [CollisionElasticPdu.members, EntityInformationFamilyPdu.members, Pdu.members, PduSuperclass.members, attrOf]) (fun o v => by simp [CollisionElasticPdu.members, EntityInformationFamilyPdu.members, Pdu.members, PduSuperclass.members, putAttr, Tree.optInt, Tree.intOr])) fun _ => ?_
  refine .bind .read fun _ => ?_
  refine .bind (.set' (fun o => by simp [CollisionElasticPdu.members, EntityInformationFamilyPdu.members, Pdu.members, PduSuperclass.members, attrOf]) (fun o => by simp [CollisionElasticPdu.members, EntityInformationFamilyPdu.members, Pdu.members, PduSuperclass.members, putAttr, Tree.optInt, Tree.intOr])) fun _ => ?_
  refine .bind .read fun _ => ?_
  refine .bind (.set' (fun o => by simp [CollisionElasticPdu.members, EntityInformationFamilyPdu.members, Pdu.members, PduSuperclass.members, attrOf]) (fun o => by simp [CollisionElasticPdu.members, EntityInformationFamilyPdu.members, Pdu.members, PduSuperclass.members, putAttr, Tree.optInt, Tree.intOr])) fun _ => ?_
  refine .bind .read fun _ => ?_
  refine .bind (.set' (fun o => by simp [CollisionElasticPdu.members, EntityInformationFamilyPdu.members, Pdu.members, PduSuperclass.members, attrOf]) (fun o => by simp [CollisionElasticPdu.members, EntityInformationFamilyPdu.members, Pdu.members, PduSuperclass.members, putAttr, Tree.optInt, Tree.intOr])) fun _ => ?_
  refine .bind .read fun _ => ?_
  refine .bind (.set' (fun o => by simp [CollisionElasticPdu.members, EntityInformationFamilyPdu.members, Pdu.members, PduSuperclass.members, attrOf]) (fun o => by simp [CollisionElasticPdu.members, EntityInformationFamilyPdu.members, Pdu.members, PduSuperclass.members, putAttr, Tree.optInt, Tree.intOr])) fun _ => ?_
  refine .bind .read fun _ => ?_
  refine .bind (.set' (fun o => by simp [CollisionElasticPdu.members, EntityInformationFamilyPdu.members, Pdu.members, PduSuperclass.members, attrOf]) (fun o => by simp [CollisionElasticPdu.members, EntityInformationFamilyPdu.members, Pdu.members, PduSuperclass.members, putAttr, Tree.optInt, Tree.intOr])) fun _ => ?_
  refine .bind .read fun _ => ?_
  refine .bind (.set' (fun o => by simp [CollisionElasticPdu.members, EntityInformationFamilyPdu.members, Pdu.members, PduSuperclass.members, attrOf]) (fun o => by simp [CollisionElasticPdu.members, EntityInformationFamilyPdu.members, Pdu.members, PduSuperclass.members, putAttr, Tree.optInt, Tree.intOr])) fun _ => ?_
  refine .bind (.call' Vector3Float.refines (fun o => by simp [CollisionElasticPdu.members, EntityInformationFamilyPdu.members, Pdu.members, PduSuperclass.members, attrOf]) (fun o v => by simp [CollisionElasticPdu.members, EntityInformationFamilyPdu.members, Pdu.members, PduSuperclass.members, putAttr, Tree.optInt, Tree.intOr])) fun _ => ?_
  refine .bind .read fun _ => ?_
  refine .bind (.set' (fun o => by simp [CollisionElasticPdu.members, EntityInformationFamilyPdu.members, Pdu.members, PduSuperclass.members, attrOf]) (fun o => by simp [CollisionElasticPdu.members, EntityInformationFamilyPdu.members, Pdu.members, PduSuperclass.members, putAttr, Tree.optInt, Tree.intOr])) fun _ => ?_
  exact .pure

theorem CollisionElasticPdu.shows : Shows CollisionElasticPdu.members CollisionElasticPdu.serialize CollisionElasticPdu.serializeHeap := by
  unfold CollisionElasticPdu.serialize CollisionElasticPdu.serializeHeap
  refine .bind (.super EntityInformationFamilyPdu.shows (fun _ => rfl)) ?_
  refine .bind (.call EntityIdentifier.shows (fun o => by simp [CollisionElasticPdu.members, EntityInformationFamilyPdu.members, Pdu.members, PduSuperclass.members, attrOf])) ?_
  refine .bind (.call EntityIdentifier.shows (fun o => by simp [CollisionElasticPdu.members, EntityInformationFamilyPdu.members, Pdu.members, PduSuperclass.members, attrOf])) ?_
  refine .bind (.call EventIdentifier.shows (fun o => by simp [CollisionElasticPdu.members, EntityInformationFamilyPdu.members, Pdu.members, PduSuperclass.members, attrOf])) ?_
  refine .bind (.putInt (fun o => by simp [CollisionElasticPdu.members, EntityInformationFamilyPdu.members, Pdu.members, PduSuperclass.members, attrOf])) ?_
  refine .bind (.call Vector3Float.shows (fun o => by simp [CollisionElasticPdu.members, EntityInformationFamilyPdu.members, Pdu.members, PduSuperclass.members, attrOf])) ?_
  refine .bind (.putFloat (fun o => by simp [CollisionElasticPdu.members, EntityInformationFamilyPdu.members, Pdu.members, PduSuperclass.members, attrOf])) ?_
  refine .bind (.call Vector3Float.shows (fun o => by simp [CollisionElasticPdu.members, EntityInformationFamilyPdu.members, Pdu.members, PduSuperclass.members, attrOf])) ?_
  refine .bind (.putFloat (fun o => by simp [CollisionElasticPdu.members, EntityInformationFamilyPdu.members, Pdu.members, PduSuperclass.members, attrOf])) ?_
  refine .bind (.putFloat (fun o => by simp [CollisionElasticPdu.members, EntityInformationFamilyPdu.members, Pdu.members, PduSuperclass.members, attrOf])) ?_
  refine .bind (.putFloat (fun o => by simp [CollisionElasticPdu.members, EntityInformationFamilyPdu.members, Pdu.members, PduSuperclass.members, attrOf])) ?_
  refine .bind (.putFloat (fun o => by simp [CollisionElasticPdu.members, EntityInformationFamilyPdu.members, Pdu.members, PduSuperclass.members, attrOf])) ?_
  refine .bind (.putFloat (fun o => by simp [CollisionElasticPdu.members, EntityInformationFamilyPdu.members, Pdu.members, PduSuperclass.members, attrOf])) ?_
  refine .bind (.putFloat (fun o => by simp [CollisionElasticPdu.members, EntityInformationFamilyPdu.members, Pdu.members, PduSuperclass.members, attrOf])) ?_
  refine .bind (.call Vector3Float.shows (fun o => by simp [CollisionElasticPdu.members, EntityInformationFamilyPdu.members, Pdu.members, PduSuperclass.members, attrOf])) ?_
  exact .putFloat (fun o => by simp [CollisionElasticPdu.members, EntityInformationFamilyPdu.members, Pdu.members, PduSuperclass.members, attrOf])

theorem ActionRequestPdu.inits (p pf : Int) (ex : List (String × Tree)) : Inits (fun self => ActionRequestPdu.initHeap self)
      (([("protocolVersion", .sc .absent), ("exerciseID", .sc .absent), ("pduType", .sc (.int p)), ("protocolFamily", .sc (.int pf)), ("timestamp", .sc .absent), ("length", .sc .absent)] : List (String × Tree)) ++
      (([("pduStatus", .sc .absent), ("padding", .sc .absent)] : List (String × Tree)) ++
      (([("originatingEntityID", .sc .absent), ("receivingEntityID", .sc .absent)] : List (String × Tree)) ++
      (([("requestID", .sc .absent), ("actionID", .sc .absent), ("_datums", .sc .absent)] : List (String × Tree)) ++ ex))))
      (ActionRequestPdu.members { pduType := p, protocolFamily := pf } ++ ex) := by
  unfold ActionRequestPdu.initHeap
  refine .bind (SimulationManagementFamilyPdu.inits p pf _) ?_
  refine .bind (.set' (by simp [attrOf_putAttr_isSome, attrOf, ActionRequestPdu.members, SimulationManagementFamilyPdu.members, Pdu.members, PduSuperclass.members])) ?_
  refine .bind (.set' (by simp [attrOf_putAttr_isSome, attrOf, ActionRequestPdu.members, SimulationManagementFamilyPdu.members, Pdu.members, PduSuperclass.members])) ?_
  exact .cast (.setNew' DatumSpecification.makesNew' (by simp [attrOf_putAttr_isSome, attrOf, ActionRequestPdu.members, SimulationManagementFamilyPdu.members, Pdu.members, PduSuperclass.members]))
    (by simp [putAttr, ActionRequestPdu.members, SimulationManagementFamilyPdu.members, Pdu.members, PduSuperclass.members, Tree.ints, Tree.objs, Tree.optInt, Tree.optObj, Tree.intOr])

theorem ActionRequestPdu.makesNew : MakesNew ActionRequestPdu.newHeap (.obj (ActionRequestPdu.members ActionRequestPdu.init)) :=
  .new (.cast (ActionRequestPdu.inits 16 5 []) (List.append_nil _))

theorem ActionRequestPdu.refines : Refines ActionRequestPdu.members ActionRequestPdu.parseInto ActionRequestPdu.parseHeap := by
  unfold ActionRequestPdu.parseInto ActionRequestPdu.parseHeap
  refine .bind (.super SimulationManagementFamilyPdu.refines (fun _ => rfl) (fun _ _ => rfl)) fun _ => ?_
  refine .bind .read fun _ => ?_
  refine .bind (.set' (fun o => by simp [ActionRequestPdu.members, SimulationManagementFamilyPdu.members, Pdu.members, PduSuperclass.members, attrOf]) (fun o => by simp [ActionRequestPdu.members, SimulationManagementFamilyPdu.members, Pdu.members, PduSuperclass.members, putAttr, Tree.optInt, Tree.intOr])) fun _ => ?_
  refine .bind .read fun _ => ?_
  refine .bind (.set' (fun o => by simp [ActionRequestPdu.members, SimulationManagementFamilyPdu.members, Pdu.members, PduSuperclass.members, attrOf]) (fun o => by simp [ActionRequestPdu.members, SimulationManagementFamilyPdu.members, Pdu.members, PduSuperclass.members, putAttr, Tree.optInt, Tree.intOr])) fun _ => ?_
  refine .bind (.call' DatumSpecification.refines (fun o => by simp [ActionRequestPdu.members, SimulationManagementFamilyPdu.members, Pdu.members, PduSuperclass.members, attrOf]) (fun o v => by simp [ActionRequestPdu.members, SimulationManagementFamilyPdu.members, Pdu.members, PduSuperclass.members, putAttr, Tree.optInt, Tree.intOr])) fun _ => ?_
  exact .pure

theorem ActionRequestPdu.shows : Shows ActionRequestPdu.members ActionRequestPdu.serialize ActionRequestPdu.serializeHeap := by
  unfold ActionRequestPdu.serialize ActionRequestPdu.serializeHeap
  refine .bind (.super SimulationManagementFamilyPdu.shows (fun _ => rfl)) ?_
  refine .bind (.putInt (fun o => by simp [ActionRequestPdu.members, SimulationManagementFamilyPdu.members, Pdu.members, PduSuperclass.members, attrOf])) ?_
  refine .bind (.putInt (fun o => by simp [ActionRequestPdu.members, SimulationManagementFamilyPdu.members, Pdu.members, PduSuperclass.members, attrOf])) ?_
  exact .call DatumSpecification.shows (fun o => by simp [ActionRequestPdu.members, SimulationManagementFamilyPdu.members, Pdu.members, PduSuperclass.members, attrOf])

theorem AcknowledgePdu.inits (p pf : Int) (ex : List (String × Tree)) : Inits (fun self => AcknowledgePdu.initHeap self)
      (([("protocolVersion", .sc .absent), ("exerciseID", .sc .absent), ("pduType", .sc (.int p)), ("protocolFamily", .sc (.int pf)), ("timestamp", .sc .absent), ("length", .sc .absent)] : List (String × Tree)) ++
      (([("pduStatus", .sc .absent), ("padding", .sc .absent)] : List (String × Tree)) ++
      (([("originatingEntityID", .sc .absent), ("receivingEntityID", .sc .absent)] : List (String × Tree)) ++
      (([("acknowledgeFlag", .sc .absent), ("responseFlag", .sc .absent), ("requestID", .sc .absent)] : List (String × Tree)) ++ ex))))
      (AcknowledgePdu.members { pduType := p, protocolFamily := pf } ++ ex) := by
  unfold AcknowledgePdu.initHeap
  refine .bind (SimulationManagementFamilyPdu.inits p pf _) ?_
  refine .bind (.set' (by simp [attrOf_putAttr_isSome, attrOf, AcknowledgePdu.members, SimulationManagementFamilyPdu.members, Pdu.members, PduSuperclass.members])) ?_
  refine .bind (.set' (by simp [attrOf_putAttr_isSome, attrOf, AcknowledgePdu.members, SimulationManagementFamilyPdu.members, Pdu.members, PduSuperclass.members])) ?_
  exact .cast (.set' (by simp [attrOf_putAttr_isSome, attrOf, AcknowledgePdu.members, SimulationManagementFamilyPdu.members, Pdu.members, PduSuperclass.members]))
    (by simp [putAttr, AcknowledgePdu.members, SimulationManagementFamilyPdu.members, Pdu.members, PduSuperclass.members, Tree.ints, Tree.objs, Tree.optInt, Tree.optObj, Tree.intOr])

theorem AcknowledgePdu.makesNew : MakesNew AcknowledgePdu.newHeap (.obj (AcknowledgePdu.members AcknowledgePdu.init)) :=
  .new (.cast (AcknowledgePdu.inits 15 5 []) (List.append_nil _))

theorem AcknowledgePdu.refines : Refines AcknowledgePdu.members AcknowledgePdu.parseInto AcknowledgePdu.parseHeap := by
  unfold AcknowledgePdu.parseInto AcknowledgePdu.parseHeap
  refine .bind (.super SimulationManagementFamilyPdu.refines (fun _ => rfl) (fun _ _ => rfl)) fun _ => ?_
  refine .bind .read fun _ => ?_
  refine .bind (.set' (fun o => by simp [AcknowledgePdu.members, SimulationManagementFamilyPdu.members, Pdu.members, PduSuperclass.members, attrOf]) (fun o => by simp [AcknowledgePdu.members, SimulationManagementFamilyPdu.members, Pdu.members, PduSuperclass.members, putAttr, Tree.optInt, Tree.intOr])) fun _ => ?_
  refine .bind .read fun _ => ?_
  refine .bind (.set' (fun o => by simp [AcknowledgePdu.members, SimulationManagementFamilyPdu.members, Pdu.members, PduSuperclass.members, attrOf]) (fun o => by simp [AcknowledgePdu.members, SimulationManagementFamilyPdu.members, Pdu.members, PduSuperclass.members, putAttr, Tree.optInt, Tree.intOr])) fun _ => ?_
  refine .bind .read fun _ => ?_
  refine .bind (.set' (fun o => by simp [AcknowledgePdu.members, SimulationManagementFamilyPdu.members, Pdu.members, PduSuperclass.members, attrOf]) (fun o => by simp [AcknowledgePdu.members, SimulationManagementFamilyPdu.members, Pdu.members, PduSuperclass.members, putAttr, Tree.optInt, Tree.intOr])) fun _ => ?_
  exact .pure

theorem AcknowledgePdu.shows : Shows AcknowledgePdu.members AcknowledgePdu.serialize AcknowledgePdu.serializeHeap := by
  unfold AcknowledgePdu.serialize AcknowledgePdu.serializeHeap
  refine .bind (.super SimulationManagementFamilyPdu.shows (fun _ => rfl)) ?_
  refine .bind (.putInt (fun o => by simp [AcknowledgePdu.members, SimulationManagementFamilyPdu.members, Pdu.members, PduSuperclass.members, attrOf])) ?_
  refine .bind (.putInt (fun o => by simp [AcknowledgePdu.members, SimulationManagementFamilyPdu.members, Pdu.members, PduSuperclass.members, attrOf])) ?_
  exact .putInt (fun o => by simp [AcknowledgePdu.members, SimulationManagementFamilyPdu.members, Pdu.members, PduSuperclass.members, attrOf])

theorem DistributedEmissionsFamilyPdu.inits (p pf : Int) (ex : List (String × Tree)) : Inits (fun self => DistributedEmissionsFamilyPdu.initHeap self)
      (([("protocolVersion", .sc .absent), ("exerciseID", .sc .absent), ("pduType", .sc (.int p)), ("protocolFamily", .sc (.int pf)), ("timestamp", .sc .absent), ("length", .sc .absent)] : List (String × Tree)) ++
      (([("pduStatus", .sc .absent), ("padding", .sc .absent)] : List (String × Tree)) ++
      ([] ++ ex)))
      (DistributedEmissionsFamilyPdu.members { pduType := p, protocolFamily := pf } ++ ex) := by
  unfold DistributedEmissionsFamilyPdu.initHeap
  exact .cast (Pdu.inits p pf _)
    (by simp [putAttr, DistributedEmissionsFamilyPdu.members, Pdu.members, PduSuperclass.members, Tree.ints, Tree.objs, Tree.optInt, Tree.optObj, Tree.intOr])

theorem DistributedEmissionsFamilyPdu.refines : Refines DistributedEmissionsFamilyPdu.members DistributedEmissionsFamilyPdu.parseInto DistributedEmissionsFamilyPdu.parseHeap := by
  unfold DistributedEmissionsFamilyPdu.parseInto DistributedEmissionsFamilyPdu.parseHeap
  refine .bind (.super Pdu.refines (fun _ => rfl) (fun _ _ => rfl)) fun _ => ?_
  exact .pure

theorem DistributedEmissionsFamilyPdu.shows : Shows DistributedEmissionsFamilyPdu.members DistributedEmissionsFamilyPdu.serialize DistributedEmissionsFamilyPdu.serializeHeap := by
  unfold DistributedEmissionsFamilyPdu.serialize DistributedEmissionsFamilyPdu.serializeHeap
  exact .super Pdu.shows (fun _ => rfl)

theorem SimulationManagementWithReliabilityFamilyPdu.inits (p pf : Int) (ex : List (String × Tree)) : Inits (fun self => SimulationManagementWithReliabilityFamilyPdu.initHeap self)
      (([("protocolVersion", .sc .absent), ("exerciseID", .sc .absent), ("pduType", .sc (.int p)), ("protocolFamily", .sc (.int pf)), ("timestamp", .sc .absent), ("length", .sc .absent)] : List (String × Tree)) ++
      (([("pduStatus", .sc .absent), ("padding", .sc .absent)] : List (String × Tree)) ++
      (([("originatingEntityID", .sc .absent), ("receivingEntityID", .sc .absent)] : List (String × Tree)) ++ ex)))
      (SimulationManagementWithReliabilityFamilyPdu.members { pduType := p, protocolFamily := pf } ++ ex) := by
  unfold SimulationManagementWithReliabilityFamilyPdu.initHeap
  refine .bind (Pdu.inits p pf _) ?_
  refine .bind (.setOr' EntityIdentifier.makesNew (by simp [attrOf_putAttr_isSome, attrOf, SimulationManagementWithReliabilityFamilyPdu.members, Pdu.members, PduSuperclass.members])) ?_
  exact .cast (.setOr' EntityIdentifier.makesNew (by simp [attrOf_putAttr_isSome, attrOf, SimulationManagementWithReliabilityFamilyPdu.members, Pdu.members, PduSuperclass.members]))
    (by simp [putAttr, SimulationManagementWithReliabilityFamilyPdu.members, Pdu.members, PduSuperclass.members, Tree.ints, Tree.objs, Tree.optInt, Tree.optObj, Tree.intOr])

theorem SimulationManagementWithReliabilityFamilyPdu.refines : Refines SimulationManagementWithReliabilityFamilyPdu.members SimulationManagementWithReliabilityFamilyPdu.parseInto SimulationManagementWithReliabilityFamilyPdu.parseHeap := by
  unfold SimulationManagementWithReliabilityFamilyPdu.parseInto SimulationManagementWithReliabilityFamilyPdu.parseHeap
  refine .bind (.super Pdu.refines (fun _ => rfl) (fun _ _ => rfl)) fun _ => ?_
  refine .bind (.call' EntityIdentifier.refines (fun o => by simp [SimulationManagementWithReliabilityFamilyPdu.members, Pdu.members, PduSuperclass.members, attrOf]) (fun o v => by simp [SimulationManagementWithReliabilityFamilyPdu.members, Pdu.members, PduSuperclass.members, putAttr, Tree.optInt, Tree.intOr])) fun _ => ?_
  refine .bind (.call' EntityIdentifier.refines (fun o => by simp [SimulationManagementWithReliabilityFamilyPdu.members, Pdu.members, PduSuperclass.members, attrOf]) (fun o v => by simp [SimulationManagementWithReliabilityFamilyPdu.members, Pdu.members, PduSuperclass.members, putAttr, Tree.optInt, Tree.intOr])) fun _ => ?_
  exact .pure

theorem SimulationManagementWithReliabilityFamilyPdu.shows : Shows SimulationManagementWithReliabilityFamilyPdu.members SimulationManagementWithReliabilityFamilyPdu.serialize SimulationManagementWithReliabilityFamilyPdu.serializeHeap := by
  unfold SimulationManagementWithReliabilityFamilyPdu.serialize SimulationManagementWithReliabilityFamilyPdu.serializeHeap
  refine .bind (.super Pdu.shows (fun _ => rfl)) ?_
  refine .bind (.call EntityIdentifier.shows (fun o => by simp [SimulationManagementWithReliabilityFamilyPdu.members, Pdu.members, PduSuperclass.members, attrOf])) ?_
  exact .call EntityIdentifier.shows (fun o => by simp [SimulationManagementWithReliabilityFamilyPdu.members, Pdu.members, PduSuperclass.members, attrOf])

theorem ActionRequestReliablePdu.inits (p pf : Int) (ex : List (String × Tree)) : Inits (fun self => ActionRequestReliablePdu.initHeap self)
      (([("protocolVersion", .sc .absent), ("exerciseID", .sc .absent), ("pduType", .sc (.int p)), ("protocolFamily", .sc (.int pf)), ("timestamp", .sc .absent), ("length", .sc .absent)] : List (String × Tree)) ++
      (([("pduStatus", .sc .absent), ("padding", .sc .absent)] : List (String × Tree)) ++
      (([("originatingEntityID", .sc .absent), ("receivingEntityID", .sc .absent)] : List (String × Tree)) ++
      (([("requiredReliabilityService", .sc .absent), ("pad1", .sc .absent), ("pad2", .sc .absent), ("requestID", .sc .absent), ("actionID", .sc .absent), ("pad3", .sc .absent), ("_datums", .sc .absent)] : List (String × Tree)) ++ ex))))
      (ActionRequestReliablePdu.members { pduType := p, protocolFamily := pf } ++ ex) := by
  unfold ActionRequestReliablePdu.initHeap
  refine .bind (SimulationManagementWithReliabilityFamilyPdu.inits p pf _) ?_
  refine .bind (.set' (by simp [attrOf_putAttr_isSome, attrOf, ActionRequestReliablePdu.members, SimulationManagementWithReliabilityFamilyPdu.members, Pdu.members, PduSuperclass.members])) ?_
  refine .bind (.set' (by simp [attrOf_putAttr_isSome, attrOf, ActionRequestReliablePdu.members, SimulationManagementWithReliabilityFamilyPdu.members, Pdu.members, PduSuperclass.members])) ?_
  refine .bind (.set' (by simp [attrOf_putAttr_isSome, attrOf, ActionRequestReliablePdu.members, SimulationManagementWithReliabilityFamilyPdu.members, Pdu.members, PduSuperclass.members])) ?_
  refine .bind (.set' (by simp [attrOf_putAttr_isSome, attrOf, ActionRequestReliablePdu.members, SimulationManagementWithReliabilityFamilyPdu.members, Pdu.members, PduSuperclass.members])) ?_
  refine .bind (.set' (by simp [attrOf_putAttr_isSome, attrOf, ActionRequestReliablePdu.members, SimulationManagementWithReliabilityFamilyPdu.members, Pdu.members, PduSuperclass.members])) ?_
  refine .bind (.set' (by simp [attrOf_putAttr_isSome, attrOf, ActionRequestReliablePdu.members, SimulationManagementWithReliabilityFamilyPdu.members, Pdu.members, PduSuperclass.members])) ?_
  exact .cast (.setNew' DatumSpecification.makesNew' (by simp [attrOf_putAttr_isSome, attrOf, ActionRequestReliablePdu.members, SimulationManagementWithReliabilityFamilyPdu.members, Pdu.members, PduSuperclass.members]))
    (by simp [putAttr, ActionRequestReliablePdu.members, SimulationManagementWithReliabilityFamilyPdu.members, Pdu.members, PduSuperclass.members, Tree.ints, Tree.objs, Tree.optInt, Tree.optObj, Tree.intOr])

theorem ActionRequestReliablePdu.makesNew : MakesNew ActionRequestReliablePdu.newHeap (.obj (ActionRequestReliablePdu.members ActionRequestReliablePdu.init)) :=
  .new (.cast (ActionRequestReliablePdu.inits 56 10 []) (List.append_nil _))

theorem ActionRequestReliablePdu.refines : Refines ActionRequestReliablePdu.members ActionRequestReliablePdu.parseInto ActionRequestReliablePdu.parseHeap := by
  unfold ActionRequestReliablePdu.parseInto ActionRequestReliablePdu.parseHeap
  refine .bind (.super SimulationManagementWithReliabilityFamilyPdu.refines (fun _ => rfl) (fun _ _ => rfl)) fun _ => ?_
  refine .bind .read fun _ => ?_
  refine .bind (.set' (fun o => by simp [ActionRequestReliablePdu.members, SimulationManagementWithReliabilityFamilyPdu.members, Pdu.members, PduSuperclass.members, attrOf]) (fun o => by simp [ActionRequestReliablePdu.members, SimulationManagementWithReliabilityFamilyPdu.members, Pdu.members, PduSuperclass.members, putAttr, Tree.optInt, Tree.intOr])) fun _ => ?_
  refine .bind .read fun _ => ?_
  refine .bind (.set' (fun o => by simp [ActionRequestReliablePdu.members, SimulationManagementWithReliabilityFamilyPdu.members, Pdu.members, PduSuperclass.members, attrOf]) (fun o => by simp [ActionRequestReliablePdu.members, SimulationManagementWithReliabilityFamilyPdu.members, Pdu.members, PduSuperclass.members, putAttr, Tree.optInt, Tree.intOr])) fun _ => ?_
  refine .bind .read fun _ => ?_
  refine .bind (.set' (fun o => by simp [ActionRequestReliablePdu.members, SimulationManagementWithReliabilityFamilyPdu.members, Pdu.members, PduSuperclass.members, attrOf]) (fun o => by simp [ActionRequestReliablePdu.members, SimulationManagementWithReliabilityFamilyPdu.members, Pdu.members, PduSuperclass.members, putAttr, Tree.optInt, Tree.intOr])) fun _ => ?_
  refine .bind .read fun _ => ?_
  refine .bind (.set' (fun o => by simp [ActionRequestReliablePdu.members, SimulationManagementWithReliabilityFamilyPdu.members, Pdu.members, PduSuperclass.members, attrOf]) (fun o => by simp [ActionRequestReliablePdu.members, SimulationManagementWithReliabilityFamilyPdu.members, Pdu.members, PduSuperclass.members, putAttr, Tree.optInt, Tree.intOr])) fun _ => ?_
  refine .bind .read fun _ => ?_
  refine .bind (.set' (fun o => by simp [ActionRequestReliablePdu.members, SimulationManagementWithReliabilityFamilyPdu.members, Pdu.members, PduSuperclass.members, attrOf]) (fun o => by simp [ActionRequestReliablePdu.members, SimulationManagementWithReliabilityFamilyPdu.members, Pdu.members, PduSuperclass.members, putAttr, Tree.optInt, Tree.intOr])) fun _ => ?_
  refine .bind .read fun _ => ?_
  refine .bind (.set' (fun o => by simp [ActionRequestReliablePdu.members, SimulationManagementWithReliabilityFamilyPdu.members, Pdu.members, PduSuperclass.members, attrOf]) (fun o => by simp [ActionRequestReliablePdu.members, SimulationManagementWithReliabilityFamilyPdu.members, Pdu.members, PduSuperclass.members, putAttr, Tree.optInt, Tree.intOr])) fun _ => ?_
  refine .bind (.call' DatumSpecification.refines (fun o => by simp [ActionRequestReliablePdu.members, SimulationManagementWithReliabilityFamilyPdu.members, Pdu.members, PduSuperclass.members, attrOf]) (fun o v => by simp [ActionRequestReliablePdu.members, SimulationManagementWithReliabilityFamilyPdu.members, Pdu.members, PduSuperclass.members, putAttr, Tree.optInt, Tree.intOr])) fun _ => ?_
  exact .pure

theorem ActionRequestReliablePdu.shows : Shows ActionRequestReliablePdu.members ActionRequestReliablePdu.serialize ActionRequestReliablePdu.serializeHeap := by
  unfold ActionRequestReliablePdu.serialize ActionRequestReliablePdu.serializeHeap
  refine .bind (.super SimulationManagementWithReliabilityFamilyPdu.shows (fun _ => rfl)) ?_
  refine .bind (.putInt (fun o => by simp [ActionRequestReliablePdu.members, SimulationManagementWithReliabilityFamilyPdu.members, Pdu.members, PduSuperclass.members, attrOf])) ?_
  refine .bind (.putInt (fun o => by simp [ActionRequestReliablePdu.members, SimulationManagementWithReliabilityFamilyPdu.members, Pdu.members, PduSuperclass.members, attrOf])) ?_
  refine .bind (.putInt (fun o => by simp [ActionRequestReliablePdu.members, SimulationManagementWithReliabilityFamilyPdu.members, Pdu.members, PduSuperclass.members, attrOf])) ?_
  refine .bind (.putInt (fun o => by simp [ActionRequestReliablePdu.members, SimulationManagementWithReliabilityFamilyPdu.members, Pdu.members, PduSuperclass.members, attrOf])) ?_
  refine .bind (.putInt (fun o => by simp [ActionRequestReliablePdu.members, SimulationManagementWithReliabilityFamilyPdu.members, Pdu.members, PduSuperclass.members, attrOf])) ?_
  refine .bind (.putInt (fun o => by simp [ActionRequestReliablePdu.members, SimulationManagementWithReliabilityFamilyPdu.members, Pdu.members, PduSuperclass.members, attrOf])) ?_
  exact .call DatumSpecification.shows (fun o => by simp [ActionRequestReliablePdu.members, SimulationManagementWithReliabilityFamilyPdu.members, Pdu.members, PduSuperclass.members, attrOf])

theorem DesignatorPdu.inits (p pf : Int) (ex : List (String × Tree)) : Inits (fun self => DesignatorPdu.initHeap self)
      (([("protocolVersion", .sc .absent), ("exerciseID", .sc .absent), ("pduType", .sc (.int p)), ("protocolFamily", .sc (.int pf)), ("timestamp", .sc .absent), ("length", .sc .absent)] : List (String × Tree)) ++
      (([("pduStatus", .sc .absent), ("padding", .sc .absent)] : List (String × Tree)) ++
      ([] ++
      (([("designatingEntityID", .sc .absent), ("codeName", .sc .absent), ("designatedEntityID", .sc .absent), ("designatorCode", .sc .absent), ("designatorPower", .sc .absent), ("designatorWavelength", .sc .absent), ("designatorSpotWrtDesignated", .sc .absent), ("designatorSpotLocation", .sc .absent), ("deadReckoningAlgorithm", .sc .absent), ("padding1", .sc .absent), ("padding2", .sc .absent), ("entityLinearAcceleration", .sc .absent)] : List (String × Tree)) ++ ex))))
      (DesignatorPdu.members { pduType := p, protocolFamily := pf } ++ ex) := by
  unfold DesignatorPdu.initHeap
  refine .bind (DistributedEmissionsFamilyPdu.inits p pf _) ?_
  refine .bind (.setOr' EntityIdentifier.makesNew (by simp [attrOf_putAttr_isSome, attrOf, DesignatorPdu.members, DistributedEmissionsFamilyPdu.members, Pdu.members, PduSuperclass.members])) ?_
  refine .bind (.set' (by simp [attrOf_putAttr_isSome, attrOf, DesignatorPdu.members, DistributedEmissionsFamilyPdu.members, Pdu.members, PduSuperclass.members])) ?_
  refine .bind (.setOr' EntityIdentifier.makesNew (by simp [attrOf_putAttr_isSome, attrOf, DesignatorPdu.members, DistributedEmissionsFamilyPdu.members, Pdu.members, PduSuperclass.members])) ?_
  refine .bind (.set' (by simp [attrOf_putAttr_isSome, attrOf, DesignatorPdu.members, DistributedEmissionsFamilyPdu.members, Pdu.members, PduSuperclass.members])) ?_
  refine .bind (.set' (by simp [attrOf_putAttr_isSome, attrOf, DesignatorPdu.members, DistributedEmissionsFamilyPdu.members, Pdu.members, PduSuperclass.members])) ?_
  refine .bind (.set' (by simp [attrOf_putAttr_isSome, attrOf, DesignatorPdu.members, DistributedEmissionsFamilyPdu.members, Pdu.members, PduSuperclass.members])) ?_
  refine .bind (.setOr' Vector3Float.makesNew (by simp [attrOf_putAttr_isSome, attrOf, DesignatorPdu.members, DistributedEmissionsFamilyPdu.members, Pdu.members, PduSuperclass.members])) ?_
  refine .bind (.setOr' WorldCoordinates.makesNew (by simp [attrOf_putAttr_isSome, attrOf, DesignatorPdu.members, DistributedEmissionsFamilyPdu.members, Pdu.members, PduSuperclass.members])) ?_
  refine .bind (.set' (by simp [attrOf_putAttr_isSome, attrOf, DesignatorPdu.members, DistributedEmissionsFamilyPdu.members, Pdu.members, PduSuperclass.members])) ?_
  refine .bind (.set' (by simp [attrOf_putAttr_isSome, attrOf, DesignatorPdu.members, DistributedEmissionsFamilyPdu.members, Pdu.members, PduSuperclass.members])) ?_
  refine .bind (.set' (by simp [attrOf_putAttr_isSome, attrOf, DesignatorPdu.members, DistributedEmissionsFamilyPdu.members, Pdu.members, PduSuperclass.members])) ?_
  exact .cast (.setOr' Vector3Float.makesNew (by simp [attrOf_putAttr_isSome, attrOf, DesignatorPdu.members, DistributedEmissionsFamilyPdu.members, Pdu.members, PduSuperclass.members]))
    (by simp [putAttr, DesignatorPdu.members, DistributedEmissionsFamilyPdu.members, Pdu.members, PduSuperclass.members, Tree.ints, Tree.objs, Tree.optInt, Tree.optObj, Tree.intOr])

theorem DesignatorPdu.makesNew : MakesNew DesignatorPdu.newHeap (.obj (DesignatorPdu.members DesignatorPdu.init)) :=
  .new (.cast (DesignatorPdu.inits 24 6 []) (List.append_nil _))

theorem DesignatorPdu.refines : Refines DesignatorPdu.members DesignatorPdu.parseInto DesignatorPdu.parseHeap := by
  unfold DesignatorPdu.parseInto DesignatorPdu.parseHeap
  refine .bind (.super DistributedEmissionsFamilyPdu.refines (fun _ => rfl) (fun _ _ => rfl)) fun _ => ?_
  refine .bind (.call' EntityIdentifier.refines (fun o => by simp [DesignatorPdu.members, DistributedEmissionsFamilyPdu.members, Pdu.members, PduSuperclass.members, attrOf]) (fun o v => by simp [DesignatorPdu.members, DistributedEmissionsFamilyPdu.members, Pdu.members, PduSuperclass.members, putAttr, Tree.optInt, Tree.intOr])) fun _ => ?_
  refine .bind .read fun _ => ?_
  refine .bind (.set' (fun o => by simp [DesignatorPdu.members, DistributedEmissionsFamilyPdu.members, Pdu.members, PduSuperclass.members, attrOf]) (fun o => by simp [DesignatorPdu.members, DistributedEmissionsFamilyPdu.members, Pdu.members, PduSuperclass.members, putAttr, Tree.optInt, Tree.intOr])) fun _ => ?_
  refine .bind (.call' EntityIdentifier.refines (fun o => by simp [DesignatorPdu.members, DistributedEmissionsFamilyPdu.members, Pdu.members, PduSuperclass.members, attrOf]) (fun o v => by simp [DesignatorPdu.members, DistributedEmissionsFamilyPdu.members, Pdu.members, PduSuperclass.members, putAttr, Tree.optInt, Tree.intOr])) fun _ => ?_
  refine .bind .read fun _ => ?_
  refine .bind (.set' (fun o => by simp [DesignatorPdu.members, DistributedEmissionsFamilyPdu.members, Pdu.members, PduSuperclass.members, attrOf]) (fun o => by simp [DesignatorPdu.members, DistributedEmissionsFamilyPdu.members, Pdu.members, PduSuperclass.members, putAttr, Tree.optInt, Tree.intOr])) fun _ => ?_
  refine .bind .read fun _ => ?_
  refine .bind (.set' (fun o => by simp [DesignatorPdu.members, DistributedEmissionsFamilyPdu.members, Pdu.members, PduSuperclass.members, attrOf]) (fun o => by simp [DesignatorPdu.members, DistributedEmissionsFamilyPdu.members, Pdu.members, PduSuperclass.members, putAttr, Tree.optInt, Tree.intOr])) fun _ => ?_
  refine .bind .read fun _ => ?_
  refine .bind (.set' (fun o => by simp [DesignatorPdu.members, DistributedEmissionsFamilyPdu.members, Pdu.members, PduSuperclass.members, attrOf]) (fun o => by simp [DesignatorPdu.members, DistributedEmissionsFamilyPdu.members, Pdu.members, PduSuperclass.members, putAttr, Tree.optInt, Tree.intOr])) fun _ => ?_
  refine .bind (.call' Vector3Float.refines (fun o => by simp [DesignatorPdu.members, DistributedEmissionsFamilyPdu.members, Pdu.members, PduSuperclass.members, attrOf]) (fun o v => by simp [DesignatorPdu.members, DistributedEmissionsFamilyPdu.members, Pdu.members, PduSuperclass.members, putAttr, Tree.optInt, Tree.intOr])) fun _ => ?_
  refine .bind (.call' WorldCoordinates.refines (fun o => by simp [DesignatorPdu.members, DistributedEmissionsFamilyPdu.members, Pdu.members, PduSuperclass.members, attrOf]) (fun o v => by simp [DesignatorPdu.members, DistributedEmissionsFamilyPdu.members, Pdu.members, PduSuperclass.members, putAttr, Tree.optInt, Tree.intOr])) fun _ => ?_
  refine .bind .read fun _ => ?_
  refine .bind (.set' (fun o => by simp [DesignatorPdu.members, DistributedEmissionsFamilyPdu.members, Pdu.members, PduSuperclass.members, attrOf]) (fun o => by simp [DesignatorPdu.members, DistributedEmissionsFamilyPdu.members, Pdu.members, PduSuperclass.members, putAttr, Tree.optInt, Tree.intOr])) fun _ => ?_
  refine .bind .read fun _ => ?_
  refine .bind (.set' (fun o => by simp [DesignatorPdu.members, DistributedEmissionsFamilyPdu.members, Pdu.members, PduSuperclass.members, attrOf]) (fun o => by simp [DesignatorPdu.members, DistributedEmissionsFamilyPdu.members, Pdu.members, PduSuperclass.members, putAttr, Tree.optInt, Tree.intOr])) fun _ => ?_
  refine .bind .read fun _ => ?_
  refine .bind (.set' (fun o => by simp [DesignatorPdu.members, DistributedEmissionsFamilyPdu.members, Pdu.members, PduSuperclass.members, attrOf]) (fun o => by simp [DesignatorPdu.members, DistributedEmissionsFamilyPdu.members, Pdu.members, PduSuperclass.members, putAttr, Tree.optInt, Tree.intOr])) fun _ => ?_
  refine .bind (.call' Vector3Float.refines (fun o => by simp [DesignatorPdu.members, DistributedEmissionsFamilyPdu.members, Pdu.members, PduSuperclass.members, attrOf]) (fun o v => by simp [DesignatorPdu.members, DistributedEmissionsFamilyPdu.members, Pdu.members, PduSuperclass.members, putAttr, Tree.optInt, Tree.intOr])) fun _ => ?_
  exact .pure

theorem DesignatorPdu.shows : Shows DesignatorPdu.members DesignatorPdu.serialize DesignatorPdu.serializeHeap := by
  unfold DesignatorPdu.serialize DesignatorPdu.serializeHeap
  refine .bind (.super DistributedEmissionsFamilyPdu.shows (fun _ => rfl)) ?_
  refine .bind (.call EntityIdentifier.shows (fun o => by simp [DesignatorPdu.members, DistributedEmissionsFamilyPdu.members, Pdu.members, PduSuperclass.members, attrOf])) ?_
  refine .bind (.putInt (fun o => by simp [DesignatorPdu.members, DistributedEmissionsFamilyPdu.members, Pdu.members, PduSuperclass.members, attrOf])) ?_
  refine .bind (.call EntityIdentifier.shows (fun o => by simp [DesignatorPdu.members, DistributedEmissionsFamilyPdu.members, Pdu.members, PduSuperclass.members, attrOf])) ?_
  refine .bind (.putInt (fun o => by simp [DesignatorPdu.members, DistributedEmissionsFamilyPdu.members, Pdu.members, PduSuperclass.members, attrOf])) ?_
  refine .bind (.putFloat (fun o => by simp [DesignatorPdu.members, DistributedEmissionsFamilyPdu.members, Pdu.members, PduSuperclass.members, attrOf])) ?_
  refine .bind (.putFloat (fun o => by simp [DesignatorPdu.members, DistributedEmissionsFamilyPdu.members, Pdu.members, PduSuperclass.members, attrOf])) ?_
  refine .bind (.call Vector3Float.shows (fun o => by simp [DesignatorPdu.members, DistributedEmissionsFamilyPdu.members, Pdu.members, PduSuperclass.members, attrOf])) ?_
  refine .bind (.call WorldCoordinates.shows (fun o => by simp [DesignatorPdu.members, DistributedEmissionsFamilyPdu.members, Pdu.members, PduSuperclass.members, attrOf])) ?_
  refine .bind (.putInt (fun o => by simp [DesignatorPdu.members, DistributedEmissionsFamilyPdu.members, Pdu.members, PduSuperclass.members, attrOf])) ?_
  refine .bind (.putInt (fun o => by simp [DesignatorPdu.members, DistributedEmissionsFamilyPdu.members, Pdu.members, PduSuperclass.members, attrOf])) ?_
  refine .bind (.putInt (fun o => by simp [DesignatorPdu.members, DistributedEmissionsFamilyPdu.members, Pdu.members, PduSuperclass.members, attrOf])) ?_
  exact .call Vector3Float.shows (fun o => by simp [DesignatorPdu.members, DistributedEmissionsFamilyPdu.members, Pdu.members, PduSuperclass.members, attrOf])

theorem StopFreezePdu.inits (p pf : Int) (ex : List (String × Tree)) : Inits (fun self => StopFreezePdu.initHeap self)
      (([("protocolVersion", .sc .absent), ("exerciseID", .sc .absent), ("pduType", .sc (.int p)), ("protocolFamily", .sc (.int pf)), ("timestamp", .sc .absent), ("length", .sc .absent)] : List (String × Tree)) ++
      (([("pduStatus", .sc .absent), ("padding", .sc .absent)] : List (String × Tree)) ++
      (([("originatingEntityID", .sc .absent), ("receivingEntityID", .sc .absent)] : List (String × Tree)) ++
      (([("realWorldTime", .sc .absent), ("reason", .sc .absent), ("frozenBehavior", .sc .absent), ("padding1", .sc .absent), ("requestID", .sc .absent)] : List (String × Tree)) ++ ex))))
      (StopFreezePdu.members { pduType := p, protocolFamily := pf } ++ ex) := by
  unfold StopFreezePdu.initHeap
  refine .bind (SimulationManagementFamilyPdu.inits p pf _) ?_
  refine .bind (.setOr' ClockTime.makesNew (by simp [attrOf_putAttr_isSome, attrOf, StopFreezePdu.members, SimulationManagementFamilyPdu.members, Pdu.members, PduSuperclass.members])) ?_
  refine .bind (.set' (by simp [attrOf_putAttr_isSome, attrOf, StopFreezePdu.members, SimulationManagementFamilyPdu.members, Pdu.members, PduSuperclass.members])) ?_
  refine .bind (.set' (by simp [attrOf_putAttr_isSome, attrOf, StopFreezePdu.members, SimulationManagementFamilyPdu.members, Pdu.members, PduSuperclass.members])) ?_
  refine .bind (.set' (by simp [attrOf_putAttr_isSome, attrOf, StopFreezePdu.members, SimulationManagementFamilyPdu.members, Pdu.members, PduSuperclass.members])) ?_
  exact .cast (.set' (by simp [attrOf_putAttr_isSome, attrOf, StopFreezePdu.members, SimulationManagementFamilyPdu.members, Pdu.members, PduSuperclass.members]))
    (by simp [putAttr, StopFreezePdu.members, SimulationManagementFamilyPdu.members, Pdu.members, PduSuperclass.members, Tree.ints, Tree.objs, Tree.optInt, Tree.optObj, Tree.intOr])

theorem StopFreezePdu.makesNew : MakesNew StopFreezePdu.newHeap (.obj (StopFreezePdu.members StopFreezePdu.init)) :=
  .new (.cast (StopFreezePdu.inits 14 5 []) (List.append_nil _))

theorem StopFreezePdu.refines : Refines StopFreezePdu.members StopFreezePdu.parseInto StopFreezePdu.parseHeap := by
  unfold StopFreezePdu.parseInto StopFreezePdu.parseHeap
  refine .bind (.super SimulationManagementFamilyPdu.refines (fun _ => rfl) (fun _ _ => rfl)) fun _ => ?_
  refine .bind (.call' ClockTime.refines (fun o => by simp [StopFreezePdu.members, SimulationManagementFamilyPdu.members, Pdu.members, PduSuperclass.members, attrOf]) (fun o v => by simp [StopFreezePdu.members, SimulationManagementFamilyPdu.members, Pdu.members, PduSuperclass.members, putAttr, Tree.optInt, Tree.intOr])) fun _ => ?_
  refine .bind .read fun _ => ?_
  refine .bind (.set' (fun o => by simp [StopFreezePdu.members, SimulationManagementFamilyPdu.members, Pdu.members, PduSuperclass.members, attrOf]) (fun o => by simp [StopFreezePdu.members, SimulationManagementFamilyPdu.members, Pdu.members, PduSuperclass.members, putAttr, Tree.optInt, Tree.intOr])) fun _ => ?_
  refine .bind .read fun _ => ?_
  refine .bind (.set' (fun o => by simp [StopFreezePdu.members, SimulationManagementFamilyPdu.members, Pdu.members, PduSuperclass.members, attrOf]) (fun o => by simp [StopFreezePdu.members, SimulationManagementFamilyPdu.members, Pdu.members, PduSuperclass.members, putAttr, Tree.optInt, Tree.intOr])) fun _ => ?_
  refine .bind .read fun _ => ?_
  refine .bind (.set' (fun o => by simp [StopFreezePdu.members, SimulationManagementFamilyPdu.members, Pdu.members, PduSuperclass.members, attrOf]) (fun o => by simp [StopFreezePdu.members, SimulationManagementFamilyPdu.members, Pdu.members, PduSuperclass.members, putAttr, Tree.optInt, Tree.intOr])) fun _ => ?_
  refine .bind .read fun _ => ?_
  refine .bind (.set' (fun o => by simp [StopFreezePdu.members, SimulationManagementFamilyPdu.members, Pdu.members, PduSuperclass.members, attrOf]) (fun o => by simp [StopFreezePdu.members, SimulationManagementFamilyPdu.members, Pdu.members, PduSuperclass.members, putAttr, Tree.optInt, Tree.intOr])) fun _ => ?_
  exact .pure

theorem StopFreezePdu.shows : Shows StopFreezePdu.members StopFreezePdu.serialize StopFreezePdu.serializeHeap := by
  unfold StopFreezePdu.serialize StopFreezePdu.serializeHeap
  refine .bind (.super SimulationManagementFamilyPdu.shows (fun _ => rfl)) ?_
  refine .bind (.call ClockTime.shows (fun o => by simp [StopFreezePdu.members, SimulationManagementFamilyPdu.members, Pdu.members, PduSuperclass.members, attrOf])) ?_
  refine .bind (.putInt (fun o => by simp [StopFreezePdu.members, SimulationManagementFamilyPdu.members, Pdu.members, PduSuperclass.members, attrOf])) ?_
  refine .bind (.putInt (fun o => by simp [StopFreezePdu.members, SimulationManagementFamilyPdu.members, Pdu.members, PduSuperclass.members, attrOf])) ?_
  refine .bind (.putInt (fun o => by simp [StopFreezePdu.members, SimulationManagementFamilyPdu.members, Pdu.members, PduSuperclass.members, attrOf])) ?_
  exact .putInt (fun o => by simp [StopFreezePdu.members, SimulationManagementFamilyPdu.members, Pdu.members, PduSuperclass.members, attrOf])

theorem EntityStatePdu.inits (p pf : Int) (ex : List (String × Tree)) : Inits (fun self => EntityStatePdu.initHeap self)
      (([("protocolVersion", .sc .absent), ("exerciseID", .sc .absent), ("pduType", .sc (.int p)), ("protocolFamily", .sc (.int pf)), ("timestamp", .sc .absent), ("length", .sc .absent)] : List (String × Tree)) ++
      (([("pduStatus", .sc .absent), ("padding", .sc .absent)] : List (String × Tree)) ++
      ([] ++
      (([("entityID", .sc .absent), ("forceId", .sc .absent), ("entityType", .sc .absent), ("alternativeEntityType", .sc .absent), ("entityLinearVelocity", .sc .absent), ("entityLocation", .sc .absent), ("entityOrientation", .sc .absent), ("entityAppearance", .sc .absent), ("deadReckoningParameters", .sc .absent), ("marking", .sc .absent), ("capabilities", .sc .absent), ("variableParameters", .sc .absent)] : List (String × Tree)) ++ ex))))
      (EntityStatePdu.members { pduType := p, protocolFamily := pf } ++ ex) := by
  unfold EntityStatePdu.initHeap
  refine .bind (EntityInformationFamilyPdu.inits p pf _) ?_
  refine .bind (.setOr' EntityIdentifier.makesNew (by simp [attrOf_putAttr_isSome, attrOf, EntityStatePdu.members, EntityInformationFamilyPdu.members, Pdu.members, PduSuperclass.members])) ?_
  refine .bind (.set' (by simp [attrOf_putAttr_isSome, attrOf, EntityStatePdu.members, EntityInformationFamilyPdu.members, Pdu.members, PduSuperclass.members])) ?_
  refine .bind (.setOr' EntityType.makesNew (by simp [attrOf_putAttr_isSome, attrOf, EntityStatePdu.members, EntityInformationFamilyPdu.members, Pdu.members, PduSuperclass.members])) ?_
  refine .bind (.setOr' EntityType.makesNew (by simp [attrOf_putAttr_isSome, attrOf, EntityStatePdu.members, EntityInformationFamilyPdu.members, Pdu.members, PduSuperclass.members])) ?_
  refine .bind (.setOr' Vector3Float.makesNew (by simp [attrOf_putAttr_isSome, attrOf, EntityStatePdu.members, EntityInformationFamilyPdu.members, Pdu.members, PduSuperclass.members])) ?_
  refine .bind (.setOr' WorldCoordinates.makesNew (by simp [attrOf_putAttr_isSome, attrOf, EntityStatePdu.members, EntityInformationFamilyPdu.members, Pdu.members, PduSuperclass.members])) ?_
  refine .bind (.setOr' EulerAngles.makesNew (by simp [attrOf_putAttr_isSome, attrOf, EntityStatePdu.members, EntityInformationFamilyPdu.members, Pdu.members, PduSuperclass.members])) ?_
  refine .bind (.set' (by simp [attrOf_putAttr_isSome, attrOf, EntityStatePdu.members, EntityInformationFamilyPdu.members, Pdu.members, PduSuperclass.members])) ?_
  refine .bind (.setOr' DeadReckoningParameters.makesNew (by simp [attrOf_putAttr_isSome, attrOf, EntityStatePdu.members, EntityInformationFamilyPdu.members, Pdu.members, PduSuperclass.members])) ?_
  refine .bind (.setOr' EntityMarking.makesNew (by simp [attrOf_putAttr_isSome, attrOf, EntityStatePdu.members, EntityInformationFamilyPdu.members, Pdu.members, PduSuperclass.members])) ?_
  refine .bind (.set' (by simp [attrOf_putAttr_isSome, attrOf, EntityStatePdu.members, EntityInformationFamilyPdu.members, Pdu.members, PduSuperclass.members])) ?_
  exact .cast (.setOr' .empty (by simp [attrOf_putAttr_isSome, attrOf, EntityStatePdu.members, EntityInformationFamilyPdu.members, Pdu.members, PduSuperclass.members]))
    (by simp [putAttr, EntityStatePdu.members, EntityInformationFamilyPdu.members, Pdu.members, PduSuperclass.members, Tree.ints, Tree.objs, Tree.optInt, Tree.optObj, Tree.intOr])

theorem EntityStatePdu.makesNew : MakesNew EntityStatePdu.newHeap (.obj (EntityStatePdu.members EntityStatePdu.init)) :=
  .new (.cast (EntityStatePdu.inits 1 1 []) (List.append_nil _))

theorem EntityStatePdu.refines : Refines EntityStatePdu.members EntityStatePdu.parseInto EntityStatePdu.parseHeap := by
  unfold EntityStatePdu.parseInto EntityStatePdu.parseHeap
  refine .bind (.super EntityInformationFamilyPdu.refines (fun _ => rfl) (fun _ _ => rfl)) fun _ => ?_
  refine .bind (.call' EntityIdentifier.refines (fun o => by simp [EntityStatePdu.members, EntityInformationFamilyPdu.members, Pdu.members, PduSuperclass.members, attrOf]) (fun o v => by simp [EntityStatePdu.members, EntityInformationFamilyPdu.members, Pdu.members, PduSuperclass.members, putAttr, Tree.optInt, Tree.intOr])) fun _ => ?_
  refine .bind .read fun _ => ?_
  refine .bind (.set' (fun o => by simp [EntityStatePdu.members, EntityInformationFamilyPdu.members, Pdu.members, PduSuperclass.members, attrOf]) (fun o => by simp [EntityStatePdu.members, EntityInformationFamilyPdu.members, Pdu.members, PduSuperclass.members, putAttr, Tree.optInt, Tree.intOr])) fun _ => ?_
  refine .bind .read fun _ => ?_
  refine .bind (.call' EntityType.refines (fun o => by simp [EntityStatePdu.members, EntityInformationFamilyPdu.members, Pdu.members, PduSuperclass.members, attrOf]) (fun o v => by simp [EntityStatePdu.members, EntityInformationFamilyPdu.members, Pdu.members, PduSuperclass.members, putAttr, Tree.optInt, Tree.intOr])) fun _ => ?_
  refine .bind (.call' EntityType.refines (fun o => by simp [EntityStatePdu.members, EntityInformationFamilyPdu.members, Pdu.members, PduSuperclass.members, attrOf]) (fun o v => by simp [EntityStatePdu.members, EntityInformationFamilyPdu.members, Pdu.members, PduSuperclass.members, putAttr, Tree.optInt, Tree.intOr])) fun _ => ?_
  refine .bind (.call' Vector3Float.refines (fun o => by simp [EntityStatePdu.members, EntityInformationFamilyPdu.members, Pdu.members, PduSuperclass.members, attrOf]) (fun o v => by simp [EntityStatePdu.members, EntityInformationFamilyPdu.members, Pdu.members, PduSuperclass.members, putAttr, Tree.optInt, Tree.intOr])) fun _ => ?_
  refine .bind (.call' WorldCoordinates.refines (fun o => by simp [EntityStatePdu.members, EntityInformationFamilyPdu.members, Pdu.members, PduSuperclass.members, attrOf]) (fun o v => by simp [EntityStatePdu.members, EntityInformationFamilyPdu.members, Pdu.members, PduSuperclass.members, putAttr, Tree.optInt, Tree.intOr])) fun _ => ?_
  refine .bind (.call' EulerAngles.refines (fun o => by simp [EntityStatePdu.members, EntityInformationFamilyPdu.members, Pdu.members, PduSuperclass.members, attrOf]) (fun o v => by simp [EntityStatePdu.members, EntityInformationFamilyPdu.members, Pdu.members, PduSuperclass.members, putAttr, Tree.optInt, Tree.intOr])) fun _ => ?_
  refine .bind .read fun _ => ?_
  refine .bind (.set' (fun o => by simp [EntityStatePdu.members, EntityInformationFamilyPdu.members, Pdu.members, PduSuperclass.members, attrOf]) (fun o => by simp [EntityStatePdu.members, EntityInformationFamilyPdu.members, Pdu.members, PduSuperclass.members, putAttr, Tree.optInt, Tree.intOr])) fun _ => ?_
  refine .bind (.call' DeadReckoningParameters.refines (fun o => by simp [EntityStatePdu.members, EntityInformationFamilyPdu.members, Pdu.members, PduSuperclass.members, attrOf]) (fun o v => by simp [EntityStatePdu.members, EntityInformationFamilyPdu.members, Pdu.members, PduSuperclass.members, putAttr, Tree.optInt, Tree.intOr])) fun _ => ?_
  refine .bind (.call' EntityMarking.refines (fun o => by simp [EntityStatePdu.members, EntityInformationFamilyPdu.members, Pdu.members, PduSuperclass.members, attrOf]) (fun o v => by simp [EntityStatePdu.members, EntityInformationFamilyPdu.members, Pdu.members, PduSuperclass.members, putAttr, Tree.optInt, Tree.intOr])) fun _ => ?_
  refine .bind .read fun _ => ?_
  refine .bind (.set' (fun o => by simp [EntityStatePdu.members, EntityInformationFamilyPdu.members, Pdu.members, PduSuperclass.members, attrOf]) (fun o => by simp [EntityStatePdu.members, EntityInformationFamilyPdu.members, Pdu.members, PduSuperclass.members, putAttr, Tree.optInt, Tree.intOr])) fun _ => ?_
  refine .bind (.objs VariableParameter.makesNew VariableParameter.refines (fun o => by simp [EntityStatePdu.members, EntityInformationFamilyPdu.members, Pdu.members, PduSuperclass.members, attrOf]) (fun o v => by simp [EntityStatePdu.members, EntityInformationFamilyPdu.members, Pdu.members, PduSuperclass.members, putAttr, Tree.optInt, Tree.intOr])) fun _ => ?_
  exact .pure

theorem EntityStatePdu.shows : Shows EntityStatePdu.members EntityStatePdu.serialize EntityStatePdu.serializeHeap := by
  unfold EntityStatePdu.serialize EntityStatePdu.serializeHeap
  refine .bind (.super EntityInformationFamilyPdu.shows (fun _ => rfl)) ?_
  refine .bind (.call EntityIdentifier.shows (fun o => by simp [EntityStatePdu.members, EntityInformationFamilyPdu.members, Pdu.members, PduSuperclass.members, attrOf])) ?_
  refine .bind (.putInt (fun o => by simp [EntityStatePdu.members, EntityInformationFamilyPdu.members, Pdu.members, PduSuperclass.members, attrOf])) ?_
  refine .bind (.lenObjs (ts := VariableParameter.members) (fun o => by simp [EntityStatePdu.members, EntityInformationFamilyPdu.members, Pdu.members, PduSuperclass.members, attrOf])) ?_
  refine .bind (.call EntityType.shows (fun o => by simp [EntityStatePdu.members, EntityInformationFamilyPdu.members, Pdu.members, PduSuperclass.members, attrOf])) ?_
  refine .bind (.call EntityType.shows (fun o => by simp [EntityStatePdu.members, EntityInformationFamilyPdu.members, Pdu.members, PduSuperclass.members, attrOf])) ?_
  refine .bind (.call Vector3Float.shows (fun o => by simp [EntityStatePdu.members, EntityInformationFamilyPdu.members, Pdu.members, PduSuperclass.members, attrOf])) ?_
  refine .bind (.call WorldCoordinates.shows (fun o => by simp [EntityStatePdu.members, EntityInformationFamilyPdu.members, Pdu.members, PduSuperclass.members, attrOf])) ?_
  refine .bind (.call EulerAngles.shows (fun o => by simp [EntityStatePdu.members, EntityInformationFamilyPdu.members, Pdu.members, PduSuperclass.members, attrOf])) ?_
  refine .bind (.putInt (fun o => by simp [EntityStatePdu.members, EntityInformationFamilyPdu.members, Pdu.members, PduSuperclass.members, attrOf])) ?_
  refine .bind (.call DeadReckoningParameters.shows (fun o => by simp [EntityStatePdu.members, EntityInformationFamilyPdu.members, Pdu.members, PduSuperclass.members, attrOf])) ?_
  refine .bind (.call EntityMarking.shows (fun o => by simp [EntityStatePdu.members, EntityInformationFamilyPdu.members, Pdu.members, PduSuperclass.members, attrOf])) ?_
  refine .bind (.putInt (fun o => by simp [EntityStatePdu.members, EntityInformationFamilyPdu.members, Pdu.members, PduSuperclass.members, attrOf])) ?_
  exact .eachObj VariableParameter.shows (fun o => by simp [EntityStatePdu.members, EntityInformationFamilyPdu.members, Pdu.members, PduSuperclass.members, attrOf])

theorem EntityManagementFamilyPdu.inits (p pf : Int) (ex : List (String × Tree)) : Inits (fun self => EntityManagementFamilyPdu.initHeap self)
      (([("protocolVersion", .sc .absent), ("exerciseID", .sc .absent), ("pduType", .sc (.int p)), ("protocolFamily", .sc (.int pf)), ("timestamp", .sc .absent), ("length", .sc .absent)] : List (String × Tree)) ++
      (([("pduStatus", .sc .absent), ("padding", .sc .absent)] : List (String × Tree)) ++
      ([] ++ ex)))
      (EntityManagementFamilyPdu.members { pduType := p, protocolFamily := pf } ++ ex) := by
  unfold EntityManagementFamilyPdu.initHeap
  exact .cast (Pdu.inits p pf _)
    (by simp [putAttr, EntityManagementFamilyPdu.members, Pdu.members, PduSuperclass.members, Tree.ints, Tree.objs, Tree.optInt, Tree.optObj, Tree.intOr])

theorem EntityManagementFamilyPdu.refines : Refines EntityManagementFamilyPdu.members EntityManagementFamilyPdu.parseInto EntityManagementFamilyPdu.parseHeap := by
  unfold EntityManagementFamilyPdu.parseInto EntityManagementFamilyPdu.parseHeap
  refine .bind (.super Pdu.refines (fun _ => rfl) (fun _ _ => rfl)) fun _ => ?_
  exact .pure

theorem EntityManagementFamilyPdu.shows : Shows EntityManagementFamilyPdu.members EntityManagementFamilyPdu.serialize EntityManagementFamilyPdu.serializeHeap := by
  unfold EntityManagementFamilyPdu.serialize EntityManagementFamilyPdu.serializeHeap
  exact .super Pdu.shows (fun _ => rfl)

theorem StartResumePdu.inits (p pf : Int) (ex : List (String × Tree)) : Inits (fun self => StartResumePdu.initHeap self)
      (([("protocolVersion", .sc .absent), ("exerciseID", .sc .absent), ("pduType", .sc (.int p)), ("protocolFamily", .sc (.int pf)), ("timestamp", .sc .absent), ("length", .sc .absent)] : List (String × Tree)) ++
      (([("pduStatus", .sc .absent), ("padding", .sc .absent)] : List (String × Tree)) ++
      (([("originatingEntityID", .sc .absent), ("receivingEntityID", .sc .absent)] : List (String × Tree)) ++
      (([("realWorldTime", .sc .absent), ("simulationTime", .sc .absent), ("requestID", .sc .absent)] : List (String × Tree)) ++ ex))))
      (StartResumePdu.members { pduType := p, protocolFamily := pf } ++ ex) := by
  unfold StartResumePdu.initHeap
  refine .bind (SimulationManagementFamilyPdu.inits p pf _) ?_
  refine .bind (.setOr' ClockTime.makesNew (by simp [attrOf_putAttr_isSome, attrOf, StartResumePdu.members, SimulationManagementFamilyPdu.members, Pdu.members, PduSuperclass.members])) ?_
  refine .bind (.setOr' ClockTime.makesNew (by simp [attrOf_putAttr_isSome, attrOf, StartResumePdu.members, SimulationManagementFamilyPdu.members, Pdu.members, PduSuperclass.members])) ?_
  exact .cast (.set' (by simp [attrOf_putAttr_isSome, attrOf, StartResumePdu.members, SimulationManagementFamilyPdu.members, Pdu.members, PduSuperclass.members]))
    (by simp [putAttr, StartResumePdu.members, SimulationManagementFamilyPdu.members, Pdu.members, PduSuperclass.members, Tree.ints, Tree.objs, Tree.optInt, Tree.optObj, Tree.intOr])

theorem StartResumePdu.makesNew : MakesNew StartResumePdu.newHeap (.obj (StartResumePdu.members StartResumePdu.init)) :=
  .new (.cast (StartResumePdu.inits 13 5 []) (List.append_nil _))

theorem StartResumePdu.refines : Refines StartResumePdu.members StartResumePdu.parseInto StartResumePdu.parseHeap := by
  unfold StartResumePdu.parseInto StartResumePdu.parseHeap
  refine .bind (.super SimulationManagementFamilyPdu.refines (fun _ => rfl) (fun _ _ => rfl)) fun _ => ?_
  refine .bind (.call' ClockTime.refines (fun o => by simp [StartResumePdu.members, SimulationManagementFamilyPdu.members, Pdu.members, PduSuperclass.members, attrOf]) (fun o v => by simp [StartResumePdu.members, SimulationManagementFamilyPdu.members, Pdu.members, PduSuperclass.members, putAttr, Tree.optInt, Tree.intOr])) fun _ => ?_
  refine .bind (.call' ClockTime.refines (fun o => by simp [StartResumePdu.members, SimulationManagementFamilyPdu.members, Pdu.members, PduSuperclass.members, attrOf]) (fun o v => by simp [StartResumePdu.members, SimulationManagementFamilyPdu.members, Pdu.members, PduSuperclass.members, putAttr, Tree.optInt, Tree.intOr])) fun _ => ?_
  refine .bind .read fun _ => ?_
  refine .bind (.set' (fun o => by simp [StartResumePdu.members, SimulationManagementFamilyPdu.members, Pdu.members, PduSuperclass.members, attrOf]) (fun o => by simp [StartResumePdu.members, SimulationManagementFamilyPdu.members, Pdu.members, PduSuperclass.members, putAttr, Tree.optInt, Tree.intOr])) fun _ => ?_
  exact .pure

theorem StartResumePdu.shows : Shows StartResumePdu.members StartResumePdu.serialize StartResumePdu.serializeHeap := by
  unfold StartResumePdu.serialize StartResumePdu.serializeHeap
  refine .bind (.super SimulationManagementFamilyPdu.shows (fun _ => rfl)) ?_
  refine .bind (.call ClockTime.shows (fun o => by simp [StartResumePdu.members, SimulationManagementFamilyPdu.members, Pdu.members, PduSuperclass.members, attrOf])) ?_
  refine .bind (.call ClockTime.shows (fun o => by simp [StartResumePdu.members, SimulationManagementFamilyPdu.members, Pdu.members, PduSuperclass.members, attrOf])) ?_
  exact .putInt (fun o => by simp [StartResumePdu.members, SimulationManagementFamilyPdu.members, Pdu.members, PduSuperclass.members, attrOf])

theorem ElectromagneticEmissionsPdu.inits (p pf : Int) (ex : List (String × Tree)) : Inits (fun self => ElectromagneticEmissionsPdu.initHeap self)
      (([("protocolVersion", .sc .absent), ("exerciseID", .sc .absent), ("pduType", .sc (.int p)), ("protocolFamily", .sc (.int pf)), ("timestamp", .sc .absent), ("length", .sc .absent)] : List (String × Tree)) ++
      (([("pduStatus", .sc .absent), ("padding", .sc .absent)] : List (String × Tree)) ++
      ([] ++
      (([("emittingEntityID", .sc .absent), ("eventID", .sc .absent), ("stateUpdateIndicator", .sc .absent), ("systems", .sc .absent), ("paddingForEmissionsPdu", .sc .absent)] : List (String × Tree)) ++ ex))))
      (ElectromagneticEmissionsPdu.members { pduType := p, protocolFamily := pf } ++ ex) := by
  unfold ElectromagneticEmissionsPdu.initHeap
  refine .bind (DistributedEmissionsFamilyPdu.inits p pf _) ?_
  refine .bind (.setOr' EntityIdentifier.makesNew (by simp [attrOf_putAttr_isSome, attrOf, ElectromagneticEmissionsPdu.members, DistributedEmissionsFamilyPdu.members, Pdu.members, PduSuperclass.members])) ?_
  refine .bind (.setOr' EventIdentifier.makesNew (by simp [attrOf_putAttr_isSome, attrOf, ElectromagneticEmissionsPdu.members, DistributedEmissionsFamilyPdu.members, Pdu.members, PduSuperclass.members])) ?_
  refine .bind (.set' (by simp [attrOf_putAttr_isSome, attrOf, ElectromagneticEmissionsPdu.members, DistributedEmissionsFamilyPdu.members, Pdu.members, PduSuperclass.members])) ?_
  refine .bind (.setOr' .empty (by simp [attrOf_putAttr_isSome, attrOf, ElectromagneticEmissionsPdu.members, DistributedEmissionsFamilyPdu.members, Pdu.members, PduSuperclass.members])) ?_
  exact .cast (.set' (by simp [attrOf_putAttr_isSome, attrOf, ElectromagneticEmissionsPdu.members, DistributedEmissionsFamilyPdu.members, Pdu.members, PduSuperclass.members]))
    (by simp [putAttr, ElectromagneticEmissionsPdu.members, DistributedEmissionsFamilyPdu.members, Pdu.members, PduSuperclass.members, Tree.ints, Tree.objs, Tree.optInt, Tree.optObj, Tree.intOr])

theorem ElectromagneticEmissionsPdu.makesNew : MakesNew ElectromagneticEmissionsPdu.newHeap (.obj (ElectromagneticEmissionsPdu.members ElectromagneticEmissionsPdu.init)) :=
  .new (.cast (ElectromagneticEmissionsPdu.inits 23 6 []) (List.append_nil _))

theorem ElectromagneticEmissionsPdu.refines : Refines ElectromagneticEmissionsPdu.members ElectromagneticEmissionsPdu.parseInto ElectromagneticEmissionsPdu.parseHeap := by
  unfold ElectromagneticEmissionsPdu.parseInto ElectromagneticEmissionsPdu.parseHeap
  refine .bind (.super DistributedEmissionsFamilyPdu.refines (fun _ => rfl) (fun _ _ => rfl)) fun _ => ?_
  refine .bind (.call' EntityIdentifier.refines (fun o => by simp [ElectromagneticEmissionsPdu.members, DistributedEmissionsFamilyPdu.members, Pdu.members, PduSuperclass.members, attrOf]) (fun o v => by simp [ElectromagneticEmissionsPdu.members, DistributedEmissionsFamilyPdu.members, Pdu.members, PduSuperclass.members, putAttr, Tree.optInt, Tree.intOr])) fun _ => ?_
  refine .bind (.call' EventIdentifier.refines (fun o => by simp [ElectromagneticEmissionsPdu.members, DistributedEmissionsFamilyPdu.members, Pdu.members, PduSuperclass.members, attrOf]) (fun o v => by simp [ElectromagneticEmissionsPdu.members, DistributedEmissionsFamilyPdu.members, Pdu.members, PduSuperclass.members, putAttr, Tree.optInt, Tree.intOr])) fun _ => ?_
  refine .bind .read fun _ => ?_
  refine .bind (.set' (fun o => by simp [ElectromagneticEmissionsPdu.members, DistributedEmissionsFamilyPdu.members, Pdu.members, PduSuperclass.members, attrOf]) (fun o => by simp [ElectromagneticEmissionsPdu.members, DistributedEmissionsFamilyPdu.members, Pdu.members, PduSuperclass.members, putAttr, Tree.optInt, Tree.intOr])) fun _ => ?_
  refine .bind .read fun _ => ?_
  refine .bind .read fun _ => ?_
  refine .bind (.set' (fun o => by simp [ElectromagneticEmissionsPdu.members, DistributedEmissionsFamilyPdu.members, Pdu.members, PduSuperclass.members, attrOf]) (fun o => by simp [ElectromagneticEmissionsPdu.members, DistributedEmissionsFamilyPdu.members, Pdu.members, PduSuperclass.members, putAttr, Tree.optInt, Tree.intOr])) fun _ => ?_
  refine .bind (.objs EmissionSystemRecord.makesNew EmissionSystemRecord.refines (fun o => by simp [ElectromagneticEmissionsPdu.members, DistributedEmissionsFamilyPdu.members, Pdu.members, PduSuperclass.members, attrOf]) (fun o v => by simp [ElectromagneticEmissionsPdu.members, DistributedEmissionsFamilyPdu.members, Pdu.members, PduSuperclass.members, putAttr, Tree.optInt, Tree.intOr])) fun _ => ?_
  exact .pure

theorem ElectromagneticEmissionsPdu.shows : Shows ElectromagneticEmissionsPdu.members ElectromagneticEmissionsPdu.serialize ElectromagneticEmissionsPdu.serializeHeap := by
  unfold ElectromagneticEmissionsPdu.serialize ElectromagneticEmissionsPdu.serializeHeap
  refine .bind (.super DistributedEmissionsFamilyPdu.shows (fun _ => rfl)) ?_
  refine .bind (.call EntityIdentifier.shows (fun o => by simp [ElectromagneticEmissionsPdu.members, DistributedEmissionsFamilyPdu.members, Pdu.members, PduSuperclass.members, attrOf])) ?_
  refine .bind (.call EventIdentifier.shows (fun o => by simp [ElectromagneticEmissionsPdu.members, DistributedEmissionsFamilyPdu.members, Pdu.members, PduSuperclass.members, attrOf])) ?_
  refine .bind (.putInt (fun o => by simp [ElectromagneticEmissionsPdu.members, DistributedEmissionsFamilyPdu.members, Pdu.members, PduSuperclass.members, attrOf])) ?_
  refine .bind (.lenObjs (ts := EmissionSystemRecord.members) (fun o => by simp [ElectromagneticEmissionsPdu.members, DistributedEmissionsFamilyPdu.members, Pdu.members, PduSuperclass.members, attrOf])) ?_
  refine .bind (.putInt (fun o => by simp [ElectromagneticEmissionsPdu.members, DistributedEmissionsFamilyPdu.members, Pdu.members, PduSuperclass.members, attrOf])) ?_
  exact .eachObj EmissionSystemRecord.shows (fun o => by simp [ElectromagneticEmissionsPdu.members, DistributedEmissionsFamilyPdu.members, Pdu.members, PduSuperclass.members, attrOf])

theorem ResupplyOfferPdu.inits (p pf : Int) (ex : List (String × Tree)) : Inits (fun self => ResupplyOfferPdu.initHeap self)
      (([("protocolVersion", .sc .absent), ("exerciseID", .sc .absent), ("pduType", .sc (.int p)), ("protocolFamily", .sc (.int pf)), ("timestamp", .sc .absent), ("length", .sc .absent)] : List (String × Tree)) ++
      (([("pduStatus", .sc .absent), ("padding", .sc .absent)] : List (String × Tree)) ++
      ([] ++
      (([("receivingEntityID", .sc .absent), ("supplyingEntityID", .sc .absent), ("padding1", .sc .absent), ("padding2", .sc .absent), ("supplies", .sc .absent)] : List (String × Tree)) ++ ex))))
      (ResupplyOfferPdu.members { pduType := p, protocolFamily := pf } ++ ex) := by
  unfold ResupplyOfferPdu.initHeap
  refine .bind (LogisticsFamilyPdu.inits p pf _) ?_
  refine .bind (.setOr' EntityIdentifier.makesNew (by simp [attrOf_putAttr_isSome, attrOf, ResupplyOfferPdu.members, LogisticsFamilyPdu.members, Pdu.members, PduSuperclass.members])) ?_
  refine .bind (.setOr' EntityIdentifier.makesNew (by simp [attrOf_putAttr_isSome, attrOf, ResupplyOfferPdu.members, LogisticsFamilyPdu.members, Pdu.members, PduSuperclass.members])) ?_
  refine .bind (.set' (by simp [attrOf_putAttr_isSome, attrOf, ResupplyOfferPdu.members, LogisticsFamilyPdu.members, Pdu.members, PduSuperclass.members])) ?_
  refine .bind (.set' (by simp [attrOf_putAttr_isSome, attrOf, ResupplyOfferPdu.members, LogisticsFamilyPdu.members, Pdu.members, PduSuperclass.members])) ?_
  exact .cast (.setOr' .empty (by simp [attrOf_putAttr_isSome, attrOf, ResupplyOfferPdu.members, LogisticsFamilyPdu.members, Pdu.members, PduSuperclass.members]))
    (by simp [putAttr, ResupplyOfferPdu.members, LogisticsFamilyPdu.members, Pdu.members, PduSuperclass.members, Tree.ints, Tree.objs, Tree.optInt, Tree.optObj, Tree.intOr])

theorem ResupplyOfferPdu.makesNew : MakesNew ResupplyOfferPdu.newHeap (.obj (ResupplyOfferPdu.members ResupplyOfferPdu.init)) :=
  .new (.cast (ResupplyOfferPdu.inits 6 3 []) (List.append_nil _))

theorem ResupplyOfferPdu.refines : Refines ResupplyOfferPdu.members ResupplyOfferPdu.parseInto ResupplyOfferPdu.parseHeap := by
  unfold ResupplyOfferPdu.parseInto ResupplyOfferPdu.parseHeap
  refine .bind (.super LogisticsFamilyPdu.refines (fun _ => rfl) (fun _ _ => rfl)) fun _ => ?_
  refine .bind (.call' EntityIdentifier.refines (fun o => by simp [ResupplyOfferPdu.members, LogisticsFamilyPdu.members, Pdu.members, PduSuperclass.members, attrOf]) (fun o v => by simp [ResupplyOfferPdu.members, LogisticsFamilyPdu.members, Pdu.members, PduSuperclass.members, putAttr, Tree.optInt, Tree.intOr])) fun _ => ?_
  refine .bind (.call' EntityIdentifier.refines (fun o => by simp [ResupplyOfferPdu.members, LogisticsFamilyPdu.members, Pdu.members, PduSuperclass.members, attrOf]) (fun o v => by simp [ResupplyOfferPdu.members, LogisticsFamilyPdu.members, Pdu.members, PduSuperclass.members, putAttr, Tree.optInt, Tree.intOr])) fun _ => ?_
  refine .bind .read fun _ => ?_
  refine .bind .read fun _ => ?_
  refine .bind (.set' (fun o => by simp [ResupplyOfferPdu.members, LogisticsFamilyPdu.members, Pdu.members, PduSuperclass.members, attrOf]) (fun o => by simp [ResupplyOfferPdu.members, LogisticsFamilyPdu.members, Pdu.members, PduSuperclass.members, putAttr, Tree.optInt, Tree.intOr])) fun _ => ?_
  refine .bind .read fun _ => ?_
  refine .bind (.set' (fun o => by simp [ResupplyOfferPdu.members, LogisticsFamilyPdu.members, Pdu.members, PduSuperclass.members, attrOf]) (fun o => by simp [ResupplyOfferPdu.members, LogisticsFamilyPdu.members, Pdu.members, PduSuperclass.members, putAttr, Tree.optInt, Tree.intOr])) fun _ => ?_
  refine .bind (.objs SupplyQuantity.makesNew SupplyQuantity.refines (fun o => by simp [ResupplyOfferPdu.members, LogisticsFamilyPdu.members, Pdu.members, PduSuperclass.members, attrOf]) (fun o v => by simp [ResupplyOfferPdu.members, LogisticsFamilyPdu.members, Pdu.members, PduSuperclass.members, putAttr, Tree.optInt, Tree.intOr])) fun _ => ?_
  exact .pure

theorem ResupplyOfferPdu.shows : Shows ResupplyOfferPdu.members ResupplyOfferPdu.serialize ResupplyOfferPdu.serializeHeap := by
  unfold ResupplyOfferPdu.serialize ResupplyOfferPdu.serializeHeap
  refine .bind (.super LogisticsFamilyPdu.shows (fun _ => rfl)) ?_
  refine .bind (.call EntityIdentifier.shows (fun o => by simp [ResupplyOfferPdu.members, LogisticsFamilyPdu.members, Pdu.members, PduSuperclass.members, attrOf])) ?_
  refine .bind (.call EntityIdentifier.shows (fun o => by simp [ResupplyOfferPdu.members, LogisticsFamilyPdu.members, Pdu.members, PduSuperclass.members, attrOf])) ?_
  refine .bind (.lenObjs (ts := SupplyQuantity.members) (fun o => by simp [ResupplyOfferPdu.members, LogisticsFamilyPdu.members, Pdu.members, PduSuperclass.members, attrOf])) ?_
  refine .bind (.putInt (fun o => by simp [ResupplyOfferPdu.members, LogisticsFamilyPdu.members, Pdu.members, PduSuperclass.members, attrOf])) ?_
  refine .bind (.putInt (fun o => by simp [ResupplyOfferPdu.members, LogisticsFamilyPdu.members, Pdu.members, PduSuperclass.members, attrOf])) ?_
  exact .eachObj SupplyQuantity.shows (fun o => by simp [ResupplyOfferPdu.members, LogisticsFamilyPdu.members, Pdu.members, PduSuperclass.members, attrOf])

theorem AttributePdu.refines : Refines AttributePdu.members AttributePdu.parseInto AttributePdu.parseHeap := by
  unfold AttributePdu.parseInto AttributePdu.parseHeap
  refine .bind (.super EntityInformationFamilyPdu.refines (fun _ => rfl) (fun _ _ => rfl)) fun _ => ?_
  refine .bind (.call' SimulationAddress.refines (fun o => by simp [AttributePdu.members, EntityInformationFamilyPdu.members, Pdu.members, PduSuperclass.members, attrOf]) (fun o v => by simp [AttributePdu.members, EntityInformationFamilyPdu.members, Pdu.members, PduSuperclass.members, putAttr, Tree.optInt, Tree.intOr])) fun _ => ?_
  refine .bind .read fun _ => ?_
  refine .bind (.set' (fun o => by simp [AttributePdu.members, EntityInformationFamilyPdu.members, Pdu.members, PduSuperclass.members, attrOf]) (fun o => by simp [AttributePdu.members, EntityInformationFamilyPdu.members, Pdu.members, PduSuperclass.members, putAttr, Tree.optInt, Tree.intOr])) fun _ => ?_
  refine .bind .read fun _ => ?_
  refine .bind (.set' (fun o => by simp [AttributePdu.members, EntityInformationFamilyPdu.members, Pdu.members, PduSuperclass.members, attrOf]) (fun o => by simp [AttributePdu.members, EntityInformationFamilyPdu.members, Pdu.members, PduSuperclass.members, putAttr, Tree.optInt, Tree.intOr])) fun _ => ?_
  refine .bind .read fun _ => ?_
  refine .bind (.set' (fun o => by simp [AttributePdu.members, EntityInformationFamilyPdu.members, Pdu.members, PduSuperclass.members, attrOf]) (fun o => by simp [AttributePdu.members, EntityInformationFamilyPdu.members, Pdu.members, PduSuperclass.members, putAttr, Tree.optInt, Tree.intOr])) fun _ => ?_
  refine .bind .read fun _ => ?_
  refine .bind (.set' (fun o => by simp [AttributePdu.members, EntityInformationFamilyPdu.members, Pdu.members, PduSuperclass.members, attrOf]) (fun o => by simp [AttributePdu.members, EntityInformationFamilyPdu.members, Pdu.members, PduSuperclass.members, putAttr, Tree.optInt, Tree.intOr])) fun _ => ?_
  refine .bind .read fun _ => ?_
  refine .bind (.set' (fun o => by simp [AttributePdu.members, EntityInformationFamilyPdu.members, Pdu.members, PduSuperclass.members, attrOf]) (fun o => by simp [AttributePdu.members, EntityInformationFamilyPdu.members, Pdu.members, PduSuperclass.members, putAttr, Tree.optInt, Tree.intOr])) fun _ => ?_
  refine .bind .read fun _ => ?_
  refine .bind (.set' (fun o => by simp [AttributePdu.members, EntityInformationFamilyPdu.members, Pdu.members, PduSuperclass.members, attrOf]) (fun o => by simp [AttributePdu.members, EntityInformationFamilyPdu.members, Pdu.members, PduSuperclass.members, putAttr, Tree.optInt, Tree.intOr])) fun _ => ?_
  refine .bind .read fun _ => ?_
  refine .bind (.set' (fun o => by simp [AttributePdu.members, EntityInformationFamilyPdu.members, Pdu.members, PduSuperclass.members, attrOf]) (fun o => by simp [AttributePdu.members, EntityInformationFamilyPdu.members, Pdu.members, PduSuperclass.members, putAttr, Tree.optInt, Tree.intOr])) fun _ => ?_
  refine .bind .read fun _ => ?_
  refine .bind (.set' (fun o => by simp [AttributePdu.members, EntityInformationFamilyPdu.members, Pdu.members, PduSuperclass.members, attrOf]) (fun o => by simp [AttributePdu.members, EntityInformationFamilyPdu.members, Pdu.members, PduSuperclass.members, putAttr, Tree.optInt, Tree.intOr])) fun _ => ?_
  exact .pure

theorem AttributePdu.shows : Shows AttributePdu.members AttributePdu.serialize AttributePdu.serializeHeap := by
  unfold AttributePdu.serialize AttributePdu.serializeHeap
  refine .bind (.super EntityInformationFamilyPdu.shows (fun _ => rfl)) ?_
  refine .bind (.call SimulationAddress.shows (fun o => by simp [AttributePdu.members, EntityInformationFamilyPdu.members, Pdu.members, PduSuperclass.members, attrOf])) ?_
  refine .bind (.putInt (fun o => by simp [AttributePdu.members, EntityInformationFamilyPdu.members, Pdu.members, PduSuperclass.members, attrOf])) ?_
  refine .bind (.putInt (fun o => by simp [AttributePdu.members, EntityInformationFamilyPdu.members, Pdu.members, PduSuperclass.members, attrOf])) ?_
  refine .bind (.putInt (fun o => by simp [AttributePdu.members, EntityInformationFamilyPdu.members, Pdu.members, PduSuperclass.members, attrOf])) ?_
  refine .bind (.putInt (fun o => by simp [AttributePdu.members, EntityInformationFamilyPdu.members, Pdu.members, PduSuperclass.members, attrOf])) ?_
  refine .bind (.putInt (fun o => by simp [AttributePdu.members, EntityInformationFamilyPdu.members, Pdu.members, PduSuperclass.members, attrOf])) ?_
  refine .bind (.putInt (fun o => by simp [AttributePdu.members, EntityInformationFamilyPdu.members, Pdu.members, PduSuperclass.members, attrOf])) ?_
  refine .bind (.putInt (fun o => by simp [AttributePdu.members, EntityInformationFamilyPdu.members, Pdu.members, PduSuperclass.members, attrOf])) ?_
  exact .putInt (fun o => by simp [AttributePdu.members, EntityInformationFamilyPdu.members, Pdu.members, PduSuperclass.members, attrOf])

theorem MinefieldFamilyPdu.inits (p pf : Int) (ex : List (String × Tree)) : Inits (fun self => MinefieldFamilyPdu.initHeap self)
      (([("protocolVersion", .sc .absent), ("exerciseID", .sc .absent), ("pduType", .sc (.int p)), ("protocolFamily", .sc (.int pf)), ("timestamp", .sc .absent), ("length", .sc .absent)] : List (String × Tree)) ++
      (([("pduStatus", .sc .absent), ("padding", .sc .absent)] : List (String × Tree)) ++
      ([] ++ ex)))
      (MinefieldFamilyPdu.members { pduType := p, protocolFamily := pf } ++ ex) := by
  unfold MinefieldFamilyPdu.initHeap
  exact .cast (Pdu.inits p pf _)
    (by simp [putAttr, MinefieldFamilyPdu.members, Pdu.members, PduSuperclass.members, Tree.ints, Tree.objs, Tree.optInt, Tree.optObj, Tree.intOr])

theorem MinefieldFamilyPdu.refines : Refines MinefieldFamilyPdu.members MinefieldFamilyPdu.parseInto MinefieldFamilyPdu.parseHeap := by
  unfold MinefieldFamilyPdu.parseInto MinefieldFamilyPdu.parseHeap
  refine .bind (.super Pdu.refines (fun _ => rfl) (fun _ _ => rfl)) fun _ => ?_
  exact .pure

theorem MinefieldFamilyPdu.shows : Shows MinefieldFamilyPdu.members MinefieldFamilyPdu.serialize MinefieldFamilyPdu.serializeHeap := by
  unfold MinefieldFamilyPdu.serialize MinefieldFamilyPdu.serializeHeap
  exact .super Pdu.shows (fun _ => rfl)

theorem SetDataReliablePdu.inits (p pf : Int) (ex : List (String × Tree)) : Inits (fun self => SetDataReliablePdu.initHeap self)
      (([("protocolVersion", .sc .absent), ("exerciseID", .sc .absent), ("pduType", .sc (.int p)), ("protocolFamily", .sc (.int pf)), ("timestamp", .sc .absent), ("length", .sc .absent)] : List (String × Tree)) ++
      (([("pduStatus", .sc .absent), ("padding", .sc .absent)] : List (String × Tree)) ++
      (([("originatingEntityID", .sc .absent), ("receivingEntityID", .sc .absent)] : List (String × Tree)) ++
      (([("requiredReliabilityService", .sc .absent), ("pad1", .sc .absent), ("pad2", .sc .absent), ("requestID", .sc .absent), ("_datums", .sc .absent)] : List (String × Tree)) ++ ex))))
      (SetDataReliablePdu.members { pduType := p, protocolFamily := pf } ++ ex) := by
  unfold SetDataReliablePdu.initHeap
  refine .bind (SimulationManagementWithReliabilityFamilyPdu.inits p pf _) ?_
  refine .bind (.set' (by simp [attrOf_putAttr_isSome, attrOf, SetDataReliablePdu.members, SimulationManagementWithReliabilityFamilyPdu.members, Pdu.members, PduSuperclass.members])) ?_
  refine .bind (.set' (by simp [attrOf_putAttr_isSome, attrOf, SetDataReliablePdu.members, SimulationManagementWithReliabilityFamilyPdu.members, Pdu.members, PduSuperclass.members])) ?_
  refine .bind (.set' (by simp [attrOf_putAttr_isSome, attrOf, SetDataReliablePdu.members, SimulationManagementWithReliabilityFamilyPdu.members, Pdu.members, PduSuperclass.members])) ?_
  refine .bind (.set' (by simp [attrOf_putAttr_isSome, attrOf, SetDataReliablePdu.members, SimulationManagementWithReliabilityFamilyPdu.members, Pdu.members, PduSuperclass.members])) ?_
  exact .cast (.setNew' DatumSpecification.makesNew' (by simp [attrOf_putAttr_isSome, attrOf, SetDataReliablePdu.members, SimulationManagementWithReliabilityFamilyPdu.members, Pdu.members, PduSuperclass.members]))
    (by simp [putAttr, SetDataReliablePdu.members, SimulationManagementWithReliabilityFamilyPdu.members, Pdu.members, PduSuperclass.members, Tree.ints, Tree.objs, Tree.optInt, Tree.optObj, Tree.intOr])

theorem SetDataReliablePdu.makesNew : MakesNew SetDataReliablePdu.newHeap (.obj (SetDataReliablePdu.members SetDataReliablePdu.init)) :=
  .new (.cast (SetDataReliablePdu.inits 59 10 []) (List.append_nil _))

theorem SetDataReliablePdu.refines : Refines SetDataReliablePdu.members SetDataReliablePdu.parseInto SetDataReliablePdu.parseHeap := by
  unfold SetDataReliablePdu.parseInto SetDataReliablePdu.parseHeap
  refine .bind (.super SimulationManagementWithReliabilityFamilyPdu.refines (fun _ => rfl) (fun _ _ => rfl)) fun _ => ?_
  refine .bind .read fun _ => ?_
  refine .bind (.set' (fun o => by simp [SetDataReliablePdu.members, SimulationManagementWithReliabilityFamilyPdu.members, Pdu.members, PduSuperclass.members, attrOf]) (fun o => by simp [SetDataReliablePdu.members, SimulationManagementWithReliabilityFamilyPdu.members, Pdu.members, PduSuperclass.members, putAttr, Tree.optInt, Tree.intOr])) fun _ => ?_
  refine .bind .read fun _ => ?_
  refine .bind (.set' (fun o => by simp [SetDataReliablePdu.members, SimulationManagementWithReliabilityFamilyPdu.members, Pdu.members, PduSuperclass.members, attrOf]) (fun o => by simp [SetDataReliablePdu.members, SimulationManagementWithReliabilityFamilyPdu.members, Pdu.members, PduSuperclass.members, putAttr, Tree.optInt, Tree.intOr])) fun _ => ?_
  refine .bind .read fun _ => ?_
  refine .bind (.set' (fun o => by simp [SetDataReliablePdu.members, SimulationManagementWithReliabilityFamilyPdu.members, Pdu.members, PduSuperclass.members, attrOf]) (fun o => by simp [SetDataReliablePdu.members, SimulationManagementWithReliabilityFamilyPdu.members, Pdu.members, PduSuperclass.members, putAttr, Tree.optInt, Tree.intOr])) fun _ => ?_
  refine .bind .read fun _ => ?_
  refine .bind (.set' (fun o => by simp [SetDataReliablePdu.members, SimulationManagementWithReliabilityFamilyPdu.members, Pdu.members, PduSuperclass.members, attrOf]) (fun o => by simp [SetDataReliablePdu.members, SimulationManagementWithReliabilityFamilyPdu.members, Pdu.members, PduSuperclass.members, putAttr, Tree.optInt, Tree.intOr])) fun _ => ?_
  refine .bind (.call' DatumSpecification.refines (fun o => by simp [SetDataReliablePdu.members, SimulationManagementWithReliabilityFamilyPdu.members, Pdu.members, PduSuperclass.members, attrOf]) (fun o v => by simp [SetDataReliablePdu.members, SimulationManagementWithReliabilityFamilyPdu.members, Pdu.members, PduSuperclass.members, putAttr, Tree.optInt, Tree.intOr])) fun _ => ?_
  exact .pure

theorem SetDataReliablePdu.shows : Shows SetDataReliablePdu.members SetDataReliablePdu.serialize SetDataReliablePdu.serializeHeap := by
  unfold SetDataReliablePdu.serialize SetDataReliablePdu.serializeHeap
  refine .bind (.super SimulationManagementWithReliabilityFamilyPdu.shows (fun _ => rfl)) ?_
  refine .bind (.putInt (fun o => by simp [SetDataReliablePdu.members, SimulationManagementWithReliabilityFamilyPdu.members, Pdu.members, PduSuperclass.members, attrOf])) ?_
  refine .bind (.putInt (fun o => by simp [SetDataReliablePdu.members, SimulationManagementWithReliabilityFamilyPdu.members, Pdu.members, PduSuperclass.members, attrOf])) ?_
  refine .bind (.putInt (fun o => by simp [SetDataReliablePdu.members, SimulationManagementWithReliabilityFamilyPdu.members, Pdu.members, PduSuperclass.members, attrOf])) ?_
  refine .bind (.putInt (fun o => by simp [SetDataReliablePdu.members, SimulationManagementWithReliabilityFamilyPdu.members, Pdu.members, PduSuperclass.members, attrOf])) ?_
  exact .call DatumSpecification.shows (fun o => by simp [SetDataReliablePdu.members, SimulationManagementWithReliabilityFamilyPdu.members, Pdu.members, PduSuperclass.members, attrOf])

theorem EventReportPdu.inits (p pf : Int) (ex : List (String × Tree)) : Inits (fun self => EventReportPdu.initHeap self)
      (([("protocolVersion", .sc .absent), ("exerciseID", .sc .absent), ("pduType", .sc (.int p)), ("protocolFamily", .sc (.int pf)), ("timestamp", .sc .absent), ("length", .sc .absent)] : List (String × Tree)) ++
      (([("pduStatus", .sc .absent), ("padding", .sc .absent)] : List (String × Tree)) ++
      (([("originatingEntityID", .sc .absent), ("receivingEntityID", .sc .absent)] : List (String × Tree)) ++
      (([("eventType", .sc .absent), ("padding1", .sc .absent), ("_datums", .sc .absent)] : List (String × Tree)) ++ ex))))
      (EventReportPdu.members { pduType := p, protocolFamily := pf } ++ ex) := by
  unfold EventReportPdu.initHeap
  refine .bind (SimulationManagementFamilyPdu.inits p pf _) ?_
  refine .bind (.set' (by simp [attrOf_putAttr_isSome, attrOf, EventReportPdu.members, SimulationManagementFamilyPdu.members, Pdu.members, PduSuperclass.members])) ?_
  refine .bind (.set' (by simp [attrOf_putAttr_isSome, attrOf, EventReportPdu.members, SimulationManagementFamilyPdu.members, Pdu.members, PduSuperclass.members])) ?_
  exact .cast (.setNew' DatumSpecification.makesNew' (by simp [attrOf_putAttr_isSome, attrOf, EventReportPdu.members, SimulationManagementFamilyPdu.members, Pdu.members, PduSuperclass.members]))
    (by simp [putAttr, EventReportPdu.members, SimulationManagementFamilyPdu.members, Pdu.members, PduSuperclass.members, Tree.ints, Tree.objs, Tree.optInt, Tree.optObj, Tree.intOr])

theorem EventReportPdu.makesNew : MakesNew EventReportPdu.newHeap (.obj (EventReportPdu.members EventReportPdu.init)) :=
  .new (.cast (EventReportPdu.inits 21 5 []) (List.append_nil _))

theorem EventReportPdu.refines : Refines EventReportPdu.members EventReportPdu.parseInto EventReportPdu.parseHeap := by
  unfold EventReportPdu.parseInto EventReportPdu.parseHeap
  refine .bind (.super SimulationManagementFamilyPdu.refines (fun _ => rfl) (fun _ _ => rfl)) fun _ => ?_
  refine .bind .read fun _ => ?_
  refine .bind (.set' (fun o => by simp [EventReportPdu.members, SimulationManagementFamilyPdu.members, Pdu.members, PduSuperclass.members, attrOf]) (fun o => by simp [EventReportPdu.members, SimulationManagementFamilyPdu.members, Pdu.members, PduSuperclass.members, putAttr, Tree.optInt, Tree.intOr])) fun _ => ?_
  refine .bind .read fun _ => ?_
  refine .bind (.set' (fun o => by simp [EventReportPdu.members, SimulationManagementFamilyPdu.members, Pdu.members, PduSuperclass.members, attrOf]) (fun o => by simp [EventReportPdu.members, SimulationManagementFamilyPdu.members, Pdu.members, PduSuperclass.members, putAttr, Tree.optInt, Tree.intOr])) fun _ => ?_
  refine .bind (.call' DatumSpecification.refines (fun o => by simp [EventReportPdu.members, SimulationManagementFamilyPdu.members, Pdu.members, PduSuperclass.members, attrOf]) (fun o v => by simp [EventReportPdu.members, SimulationManagementFamilyPdu.members, Pdu.members, PduSuperclass.members, putAttr, Tree.optInt, Tree.intOr])) fun _ => ?_
  exact .pure

theorem EventReportPdu.shows : Shows EventReportPdu.members EventReportPdu.serialize EventReportPdu.serializeHeap := by
  unfold EventReportPdu.serialize EventReportPdu.serializeHeap
  refine .bind (.super SimulationManagementFamilyPdu.shows (fun _ => rfl)) ?_
  refine .bind (.putInt (fun o => by simp [EventReportPdu.members, SimulationManagementFamilyPdu.members, Pdu.members, PduSuperclass.members, attrOf])) ?_
  refine .bind (.putInt (fun o => by simp [EventReportPdu.members, SimulationManagementFamilyPdu.members, Pdu.members, PduSuperclass.members, attrOf])) ?_
  exact .call DatumSpecification.shows (fun o => by simp [EventReportPdu.members, SimulationManagementFamilyPdu.members, Pdu.members, PduSuperclass.members, attrOf])

theorem PointObjectStatePdu.inits (p pf : Int) (ex : List (String × Tree)) : Inits (fun self => PointObjectStatePdu.initHeap self)
      (([("protocolVersion", .sc .absent), ("exerciseID", .sc .absent), ("pduType", .sc (.int p)), ("protocolFamily", .sc (.int pf)), ("timestamp", .sc .absent), ("length", .sc .absent)] : List (String × Tree)) ++
      (([("pduStatus", .sc .absent), ("padding", .sc .absent)] : List (String × Tree)) ++
      ([] ++
      (([("objectID", .sc .absent), ("referencedObjectID", .sc .absent), ("updateNumber", .sc .absent), ("forceID", .sc .absent), ("modifications", .sc .absent), ("objectType", .sc .absent), ("objectLocation", .sc .absent), ("objectOrientation", .sc .absent), ("objectAppearance", .sc .absent), ("pad1", .sc .absent), ("requesterID", .sc .absent), ("receivingID", .sc .absent), ("pad2", .sc .absent)] : List (String × Tree)) ++ ex))))
      (PointObjectStatePdu.members { pduType := p, protocolFamily := pf } ++ ex) := by
  unfold PointObjectStatePdu.initHeap
  refine .bind (SyntheticEnvironmentFamilyPdu.inits p pf _) ?_
  refine .bind (.setOr' EntityIdentifier.makesNew (by simp [attrOf_putAttr_isSome, attrOf, PointObjectStatePdu.members, SyntheticEnvironmentFamilyPdu.members, Pdu.members, PduSuperclass.members])) ?_
  refine .bind (.setOr' EntityIdentifier.makesNew (by simp [attrOf_putAttr_isSome, attrOf, PointObjectStatePdu.members, SyntheticEnvironmentFamilyPdu.members, Pdu.members, PduSuperclass.members])) ?_
  refine .bind (.set' (by simp [attrOf_putAttr_isSome, attrOf, PointObjectStatePdu.members, SyntheticEnvironmentFamilyPdu.members, Pdu.members, PduSuperclass.members])) ?_
  refine .bind (.set' (by simp [attrOf_putAttr_isSome, attrOf, PointObjectStatePdu.members, SyntheticEnvironmentFamilyPdu.members, Pdu.members, PduSuperclass.members])) ?_
  refine .bind (.set' (by simp [attrOf_putAttr_isSome, attrOf, PointObjectStatePdu.members, SyntheticEnvironmentFamilyPdu.members, Pdu.members, PduSuperclass.members])) ?_
  refine .bind (.setOr' ObjectType.makesNew (by simp [attrOf_putAttr_isSome, attrOf, PointObjectStatePdu.members, SyntheticEnvironmentFamilyPdu.members, Pdu.members, PduSuperclass.members])) ?_
  refine .bind (.setOr' WorldCoordinates.makesNew (by simp [attrOf_putAttr_isSome, attrOf, PointObjectStatePdu.members, SyntheticEnvironmentFamilyPdu.members, Pdu.members, PduSuperclass.members])) ?_
  refine .bind (.setOr' EulerAngles.makesNew (by simp [attrOf_putAttr_isSome, attrOf, PointObjectStatePdu.members, SyntheticEnvironmentFamilyPdu.members, Pdu.members, PduSuperclass.members])) ?_
  refine .bind (.set' (by simp [attrOf_putAttr_isSome, attrOf, PointObjectStatePdu.members, SyntheticEnvironmentFamilyPdu.members, Pdu.members, PduSuperclass.members])) ?_
  refine .bind (.set' (by simp [attrOf_putAttr_isSome, attrOf, PointObjectStatePdu.members, SyntheticEnvironmentFamilyPdu.members, Pdu.members, PduSuperclass.members])) ?_
  refine .bind (.setOr' SimulationAddress.makesNew (by simp [attrOf_putAttr_isSome, attrOf, PointObjectStatePdu.members, SyntheticEnvironmentFamilyPdu.members, Pdu.members, PduSuperclass.members])) ?_
  refine .bind (.setOr' SimulationAddress.makesNew (by simp [attrOf_putAttr_isSome, attrOf, PointObjectStatePdu.members, SyntheticEnvironmentFamilyPdu.members, Pdu.members, PduSuperclass.members])) ?_
  exact .cast (.set' (by simp [attrOf_putAttr_isSome, attrOf, PointObjectStatePdu.members, SyntheticEnvironmentFamilyPdu.members, Pdu.members, PduSuperclass.members]))
    (by simp [putAttr, PointObjectStatePdu.members, SyntheticEnvironmentFamilyPdu.members, Pdu.members, PduSuperclass.members, Tree.ints, Tree.objs, Tree.optInt, Tree.optObj, Tree.intOr])

theorem PointObjectStatePdu.makesNew : MakesNew PointObjectStatePdu.newHeap (.obj (PointObjectStatePdu.members PointObjectStatePdu.init)) :=
  .new (.cast (PointObjectStatePdu.inits 43 9 []) (List.append_nil _))

theorem PointObjectStatePdu.refines : Refines PointObjectStatePdu.members PointObjectStatePdu.parseInto PointObjectStatePdu.parseHeap := by
  unfold PointObjectStatePdu.parseInto PointObjectStatePdu.parseHeap
  refine .bind (.super SyntheticEnvironmentFamilyPdu.refines (fun _ => rfl) (fun _ _ => rfl)) fun _ => ?_
  refine .bind (.call' EntityIdentifier.refines (fun o => by simp [PointObjectStatePdu.members, SyntheticEnvironmentFamilyPdu.members, Pdu.members, PduSuperclass.members, attrOf]) (fun o v => by simp [PointObjectStatePdu.members, SyntheticEnvironmentFamilyPdu.members, Pdu.members, PduSuperclass.members, putAttr, Tree.optInt, Tree.intOr])) fun _ => ?_
  refine .bind (.call' EntityIdentifier.refines (fun o => by simp [PointObjectStatePdu.members, SyntheticEnvironmentFamilyPdu.members, Pdu.members, PduSuperclass.members, attrOf]) (fun o v => by simp [PointObjectStatePdu.members, SyntheticEnvironmentFamilyPdu.members, Pdu.members, PduSuperclass.members, putAttr, Tree.optInt, Tree.intOr])) fun _ => ?_
  refine .bind .read fun _ => ?_
  refine .bind (.set' (fun o => by simp [PointObjectStatePdu.members, SyntheticEnvironmentFamilyPdu.members, Pdu.members, PduSuperclass.members, attrOf]) (fun o => by simp [PointObjectStatePdu.members, SyntheticEnvironmentFamilyPdu.members, Pdu.members, PduSuperclass.members, putAttr, Tree.optInt, Tree.intOr])) fun _ => ?_
  refine .bind .read fun _ => ?_
  refine .bind (.set' (fun o => by simp [PointObjectStatePdu.members, SyntheticEnvironmentFamilyPdu.members, Pdu.members, PduSuperclass.members, attrOf]) (fun o => by simp [PointObjectStatePdu.members, SyntheticEnvironmentFamilyPdu.members, Pdu.members, PduSuperclass.members, putAttr, Tree.optInt, Tree.intOr])) fun _ => ?_
  refine .bind .read fun _ => ?_
  refine .bind (.set' (fun o => by simp [PointObjectStatePdu.members, SyntheticEnvironmentFamilyPdu.members, Pdu.members, PduSuperclass.members, attrOf]) (fun o => by simp [PointObjectStatePdu.members, SyntheticEnvironmentFamilyPdu.members, Pdu.members, PduSuperclass.members, putAttr, Tree.optInt, Tree.intOr])) fun _ => ?_
  refine .bind (.call' ObjectType.refines (fun o => by simp [PointObjectStatePdu.members, SyntheticEnvironmentFamilyPdu.members, Pdu.members, PduSuperclass.members, attrOf]) (fun o v => by simp [PointObjectStatePdu.members, SyntheticEnvironmentFamilyPdu.members, Pdu.members, PduSuperclass.members, putAttr, Tree.optInt, Tree.intOr])) fun _ => ?_
  refine .bind (.call' WorldCoordinates.refines (fun o => by simp [PointObjectStatePdu.members, SyntheticEnvironmentFamilyPdu.members, Pdu.members, PduSuperclass.members, attrOf]) (fun o v => by simp [PointObjectStatePdu.members, SyntheticEnvironmentFamilyPdu.members, Pdu.members, PduSuperclass.members, putAttr, Tree.optInt, Tree.intOr])) fun _ => ?_
  refine .bind (.call' EulerAngles.refines (fun o => by simp [PointObjectStatePdu.members, SyntheticEnvironmentFamilyPdu.members, Pdu.members, PduSuperclass.members, attrOf]) (fun o v => by simp [PointObjectStatePdu.members, SyntheticEnvironmentFamilyPdu.members, Pdu.members, PduSuperclass.members, putAttr, Tree.optInt, Tree.intOr])) fun _ => ?_
  refine .bind .read fun _ => ?_
  refine .bind (.set' (fun o => by simp [PointObjectStatePdu.members, SyntheticEnvironmentFamilyPdu.members, Pdu.members, PduSuperclass.members, attrOf]) (fun o => by simp [PointObjectStatePdu.members, SyntheticEnvironmentFamilyPdu.members, Pdu.members, PduSuperclass.members, putAttr, Tree.optInt, Tree.intOr])) fun _ => ?_
  refine .bind (.call' SimulationAddress.refines (fun o => by simp [PointObjectStatePdu.members, SyntheticEnvironmentFamilyPdu.members, Pdu.members, PduSuperclass.members, attrOf]) (fun o v => by simp [PointObjectStatePdu.members, SyntheticEnvironmentFamilyPdu.members, Pdu.members, PduSuperclass.members, putAttr, Tree.optInt, Tree.intOr])) fun _ => ?_
  refine .bind (.call' SimulationAddress.refines (fun o => by simp [PointObjectStatePdu.members, SyntheticEnvironmentFamilyPdu.members, Pdu.members, PduSuperclass.members, attrOf]) (fun o v => by simp [PointObjectStatePdu.members, SyntheticEnvironmentFamilyPdu.members, Pdu.members, PduSuperclass.members, putAttr, Tree.optInt, Tree.intOr])) fun _ => ?_
  refine .bind .read fun _ => ?_
  refine .bind (.set' (fun o => by simp [PointObjectStatePdu.members, SyntheticEnvironmentFamilyPdu.members, Pdu.members, PduSuperclass.members, attrOf]) (fun o => by simp [PointObjectStatePdu.members, SyntheticEnvironmentFamilyPdu.members, Pdu.members, PduSuperclass.members, putAttr, Tree.optInt, Tree.intOr])) fun _ => ?_
  exact .pure

theorem PointObjectStatePdu.shows : Shows PointObjectStatePdu.members PointObjectStatePdu.serialize PointObjectStatePdu.serializeHeap := by
  unfold PointObjectStatePdu.serialize PointObjectStatePdu.serializeHeap
  refine .bind (.super SyntheticEnvironmentFamilyPdu.shows (fun _ => rfl)) ?_
  refine .bind (.call EntityIdentifier.shows (fun o => by simp [PointObjectStatePdu.members, SyntheticEnvironmentFamilyPdu.members, Pdu.members, PduSuperclass.members, attrOf])) ?_
  refine .bind (.call EntityIdentifier.shows (fun o => by simp [PointObjectStatePdu.members, SyntheticEnvironmentFamilyPdu.members, Pdu.members, PduSuperclass.members, attrOf])) ?_
  refine .bind (.putInt (fun o => by simp [PointObjectStatePdu.members, SyntheticEnvironmentFamilyPdu.members, Pdu.members, PduSuperclass.members, attrOf])) ?_
  refine .bind (.putInt (fun o => by simp [PointObjectStatePdu.members, SyntheticEnvironmentFamilyPdu.members, Pdu.members, PduSuperclass.members, attrOf])) ?_
  refine .bind (.putInt (fun o => by simp [PointObjectStatePdu.members, SyntheticEnvironmentFamilyPdu.members, Pdu.members, PduSuperclass.members, attrOf])) ?_
  refine .bind (.call ObjectType.shows (fun o => by simp [PointObjectStatePdu.members, SyntheticEnvironmentFamilyPdu.members, Pdu.members, PduSuperclass.members, attrOf])) ?_
  refine .bind (.call WorldCoordinates.shows (fun o => by simp [PointObjectStatePdu.members, SyntheticEnvironmentFamilyPdu.members, Pdu.members, PduSuperclass.members, attrOf])) ?_
  refine .bind (.call EulerAngles.shows (fun o => by simp [PointObjectStatePdu.members, SyntheticEnvironmentFamilyPdu.members, Pdu.members, PduSuperclass.members, attrOf])) ?_
  refine .bind (.putFloat (fun o => by simp [PointObjectStatePdu.members, SyntheticEnvironmentFamilyPdu.members, Pdu.members, PduSuperclass.members, attrOf])) ?_
  refine .bind (.call SimulationAddress.shows (fun o => by simp [PointObjectStatePdu.members, SyntheticEnvironmentFamilyPdu.members, Pdu.members, PduSuperclass.members, attrOf])) ?_
  refine .bind (.call SimulationAddress.shows (fun o => by simp [PointObjectStatePdu.members, SyntheticEnvironmentFamilyPdu.members, Pdu.members, PduSuperclass.members, attrOf])) ?_
  exact .putInt (fun o => by simp [PointObjectStatePdu.members, SyntheticEnvironmentFamilyPdu.members, Pdu.members, PduSuperclass.members, attrOf])

theorem DataPdu.inits (p pf : Int) (ex : List (String × Tree)) : Inits (fun self => DataPdu.initHeap self)
      (([("protocolVersion", .sc .absent), ("exerciseID", .sc .absent), ("pduType", .sc (.int p)), ("protocolFamily", .sc (.int pf)), ("timestamp", .sc .absent), ("length", .sc .absent)] : List (String × Tree)) ++
      (([("pduStatus", .sc .absent), ("padding", .sc .absent)] : List (String × Tree)) ++
      (([("originatingEntityID", .sc .absent), ("receivingEntityID", .sc .absent)] : List (String × Tree)) ++
      (([("requestID", .sc .absent), ("padding1", .sc .absent), ("_datums", .sc .absent)] : List (String × Tree)) ++ ex))))
      (DataPdu.members { pduType := p, protocolFamily := pf } ++ ex) := by
  unfold DataPdu.initHeap
  refine .bind (SimulationManagementFamilyPdu.inits p pf _) ?_
  refine .bind (.set' (by simp [attrOf_putAttr_isSome, attrOf, DataPdu.members, SimulationManagementFamilyPdu.members, Pdu.members, PduSuperclass.members])) ?_
  refine .bind (.set' (by simp [attrOf_putAttr_isSome, attrOf, DataPdu.members, SimulationManagementFamilyPdu.members, Pdu.members, PduSuperclass.members])) ?_
  exact .cast (.setNew' DatumSpecification.makesNew' (by simp [attrOf_putAttr_isSome, attrOf, DataPdu.members, SimulationManagementFamilyPdu.members, Pdu.members, PduSuperclass.members]))
    (by simp [putAttr, DataPdu.members, SimulationManagementFamilyPdu.members, Pdu.members, PduSuperclass.members, Tree.ints, Tree.objs, Tree.optInt, Tree.optObj, Tree.intOr])

theorem DataPdu.makesNew : MakesNew DataPdu.newHeap (.obj (DataPdu.members DataPdu.init)) :=
  .new (.cast (DataPdu.inits 20 5 []) (List.append_nil _))

theorem DataPdu.refines : Refines DataPdu.members DataPdu.parseInto DataPdu.parseHeap := by
  unfold DataPdu.parseInto DataPdu.parseHeap
  refine .bind (.super SimulationManagementFamilyPdu.refines (fun _ => rfl) (fun _ _ => rfl)) fun _ => ?_
  refine .bind .read fun _ => ?_
  refine .bind (.set' (fun o => by simp [DataPdu.members, SimulationManagementFamilyPdu.members, Pdu.members, PduSuperclass.members, attrOf]) (fun o => by simp [DataPdu.members, SimulationManagementFamilyPdu.members, Pdu.members, PduSuperclass.members, putAttr, Tree.optInt, Tree.intOr])) fun _ => ?_
  refine .bind .read fun _ => ?_
  refine .bind (.set' (fun o => by simp [DataPdu.members, SimulationManagementFamilyPdu.members, Pdu.members, PduSuperclass.members, attrOf]) (fun o => by simp [DataPdu.members, SimulationManagementFamilyPdu.members, Pdu.members, PduSuperclass.members, putAttr, Tree.optInt, Tree.intOr])) fun _ => ?_
  refine .bind (.call' DatumSpecification.refines (fun o => by simp [DataPdu.members, SimulationManagementFamilyPdu.members, Pdu.members, PduSuperclass.members, attrOf]) (fun o v => by simp [DataPdu.members, SimulationManagementFamilyPdu.members, Pdu.members, PduSuperclass.members, putAttr, Tree.optInt, Tree.intOr])) fun _ => ?_
  exact .pure

theorem DataPdu.shows : Shows DataPdu.members DataPdu.serialize DataPdu.serializeHeap := by
  unfold DataPdu.serialize DataPdu.serializeHeap
  refine .bind (.super SimulationManagementFamilyPdu.shows (fun _ => rfl)) ?_
  refine .bind (.putInt (fun o => by simp [DataPdu.members, SimulationManagementFamilyPdu.members, Pdu.members, PduSuperclass.members, attrOf])) ?_
  refine .bind (.putInt (fun o => by simp [DataPdu.members, SimulationManagementFamilyPdu.members, Pdu.members, PduSuperclass.members, attrOf])) ?_
  exact .call DatumSpecification.shows (fun o => by simp [DataPdu.members, SimulationManagementFamilyPdu.members, Pdu.members, PduSuperclass.members, attrOf])

theorem FastEntityStatePdu.inits (p pf : Int) (ex : List (String × Tree)) : Inits (fun self => FastEntityStatePdu.initHeap self)
      (([("protocolVersion", .sc .absent), ("exerciseID", .sc .absent), ("pduType", .sc (.int p)), ("protocolFamily", .sc (.int pf)), ("timestamp", .sc .absent), ("length", .sc .absent)] : List (String × Tree)) ++
      (([("pduStatus", .sc .absent), ("padding", .sc .absent)] : List (String × Tree)) ++
      ([] ++
      (([("site", .sc .absent), ("application", .sc .absent), ("entity", .sc .absent), ("forceId", .sc .absent), ("numberOfVariableParameters", .sc .absent), ("entityKind", .sc .absent), ("domain", .sc .absent), ("country", .sc .absent), ("category", .sc .absent), ("subcategory", .sc .absent), ("specific", .sc .absent), ("extra", .sc .absent), ("altEntityKind", .sc .absent), ("altDomain", .sc .absent), ("altCountry", .sc .absent), ("altCategory", .sc .absent), ("altSubcategory", .sc .absent), ("altSpecific", .sc .absent), ("altExtra", .sc .absent), ("xVelocity", .sc .absent), ("yVelocity", .sc .absent), ("zVelocity", .sc .absent), ("xLocation", .sc .absent), ("yLocation", .sc .absent), ("zLocation", .sc .absent), ("psi", .sc .absent), ("theta", .sc .absent), ("phi", .sc .absent), ("entityAppearance", .sc .absent), ("deadReckoningAlgorithm", .sc .absent), ("otherParameters", .sc .absent), ("xAcceleration", .sc .absent), ("yAcceleration", .sc .absent), ("zAcceleration", .sc .absent), ("xAngularVelocity", .sc .absent), ("yAngularVelocity", .sc .absent), ("zAngularVelocity", .sc .absent), ("marking", .sc .absent), ("capabilities", .sc .absent), ("variableParameters", .sc .absent)] : List (String × Tree)) ++ ex))))
      (FastEntityStatePdu.members { pduType := p, protocolFamily := pf } ++ ex) := by
  unfold FastEntityStatePdu.initHeap
  refine .bind (EntityInformationFamilyPdu.inits p pf _) ?_
  refine .bind (.set' (by simp [attrOf_putAttr_isSome, attrOf, FastEntityStatePdu.members, EntityInformationFamilyPdu.members, Pdu.members, PduSuperclass.members])) ?_
  refine .bind (.set' (by simp [attrOf_putAttr_isSome, attrOf, FastEntityStatePdu.members, EntityInformationFamilyPdu.members, Pdu.members, PduSuperclass.members])) ?_
  refine .bind (.set' (by simp [attrOf_putAttr_isSome, attrOf, FastEntityStatePdu.members, EntityInformationFamilyPdu.members, Pdu.members, PduSuperclass.members])) ?_
  refine .bind (.set' (by simp [attrOf_putAttr_isSome, attrOf, FastEntityStatePdu.members, EntityInformationFamilyPdu.members, Pdu.members, PduSuperclass.members])) ?_
  refine .bind (.set' (by simp [attrOf_putAttr_isSome, attrOf, FastEntityStatePdu.members, EntityInformationFamilyPdu.members, Pdu.members, PduSuperclass.members])) ?_
  refine .bind (.set' (by simp [attrOf_putAttr_isSome, attrOf, FastEntityStatePdu.members, EntityInformationFamilyPdu.members, Pdu.members, PduSuperclass.members])) ?_
  refine .bind (.set' (by simp [attrOf_putAttr_isSome, attrOf, FastEntityStatePdu.members, EntityInformationFamilyPdu.members, Pdu.members, PduSuperclass.members])) ?_
  refine .bind (.set' (by simp [attrOf_putAttr_isSome, attrOf, FastEntityStatePdu.members, EntityInformationFamilyPdu.members, Pdu.members, PduSuperclass.members])) ?_
  refine .bind (.set' (by simp [attrOf_putAttr_isSome, attrOf, FastEntityStatePdu.members, EntityInformationFamilyPdu.members, Pdu.members, PduSuperclass.members])) ?_
  refine .bind (.set' (by simp [attrOf_putAttr_isSome, attrOf, FastEntityStatePdu.members, EntityInformationFamilyPdu.members, Pdu.members, PduSuperclass.members])) ?_
  refine .bind (.set' (by simp [attrOf_putAttr_isSome, attrOf, FastEntityStatePdu.members, EntityInformationFamilyPdu.members, Pdu.members, PduSuperclass.members])) ?_
  refine .bind (.set' (by simp [attrOf_putAttr_isSome, attrOf, FastEntityStatePdu.members, EntityInformationFamilyPdu.members, Pdu.members, PduSuperclass.members])) ?_
  refine .bind (.set' (by simp [attrOf_putAttr_isSome, attrOf, FastEntityStatePdu.members, EntityInformationFamilyPdu.members, Pdu.members, PduSuperclass.members])) ?_
  refine .bind (.set' (by simp [attrOf_putAttr_isSome, attrOf, FastEntityStatePdu.members, EntityInformationFamilyPdu.members, Pdu.members, PduSuperclass.members])) ?_
  refine .bind (.set' (by simp [attrOf_putAttr_isSome, attrOf, FastEntityStatePdu.members, EntityInformationFamilyPdu.members, Pdu.members, PduSuperclass.members])) ?_
  refine .bind (.set' (by simp [attrOf_putAttr_isSome, attrOf, FastEntityStatePdu.members, EntityInformationFamilyPdu.members, Pdu.members, PduSuperclass.members])) ?_
  refine .bind (.set' (by simp [attrOf_putAttr_isSome, attrOf, FastEntityStatePdu.members, EntityInformationFamilyPdu.members, Pdu.members, PduSuperclass.members])) ?_
  refine .bind (.set' (by simp [attrOf_putAttr_isSome, attrOf, FastEntityStatePdu.members, EntityInformationFamilyPdu.members, Pdu.members, PduSuperclass.members])) ?_
  refine .bind (.set' (by simp [attrOf_putAttr_isSome, attrOf, FastEntityStatePdu.members, EntityInformationFamilyPdu.members, Pdu.members, PduSuperclass.members])) ?_
  refine .bind (.set' (by simp [attrOf_putAttr_isSome, attrOf, FastEntityStatePdu.members, EntityInformationFamilyPdu.members, Pdu.members, PduSuperclass.members])) ?_
  refine .bind (.set' (by simp [attrOf_putAttr_isSome, attrOf, FastEntityStatePdu.members, EntityInformationFamilyPdu.members, Pdu.members, PduSuperclass.members])) ?_
  refine .bind (.set' (by simp [attrOf_putAttr_isSome, attrOf, FastEntityStatePdu.members, EntityInformationFamilyPdu.members, Pdu.members, PduSuperclass.members])) ?_
  refine .bind (.set' (by simp [attrOf_putAttr_isSome, attrOf, FastEntityStatePdu.members, EntityInformationFamilyPdu.members, Pdu.members, PduSuperclass.members])) ?_
  refine .bind (.set' (by simp [attrOf_putAttr_isSome, attrOf, FastEntityStatePdu.members, EntityInformationFamilyPdu.members, Pdu.members, PduSuperclass.members])) ?_
  refine .bind (.set' (by simp [attrOf_putAttr_isSome, attrOf, FastEntityStatePdu.members, EntityInformationFamilyPdu.members, Pdu.members, PduSuperclass.members])) ?_
  refine .bind (.set' (by simp [attrOf_putAttr_isSome, attrOf, FastEntityStatePdu.members, EntityInformationFamilyPdu.members, Pdu.members, PduSuperclass.members])) ?_
  refine .bind (.set' (by simp [attrOf_putAttr_isSome, attrOf, FastEntityStatePdu.members, EntityInformationFamilyPdu.members, Pdu.members, PduSuperclass.members])) ?_
  refine .bind (.set' (by simp [attrOf_putAttr_isSome, attrOf, FastEntityStatePdu.members, EntityInformationFamilyPdu.members, Pdu.members, PduSuperclass.members])) ?_
  refine .bind (.set' (by simp [attrOf_putAttr_isSome, attrOf, FastEntityStatePdu.members, EntityInformationFamilyPdu.members, Pdu.members, PduSuperclass.members])) ?_
  refine .bind (.set' (by simp [attrOf_putAttr_isSome, attrOf, FastEntityStatePdu.members, EntityInformationFamilyPdu.members, Pdu.members, PduSuperclass.members])) ?_
  refine .bind (.setOr' (.zeros 15) (by simp [attrOf_putAttr_isSome, attrOf, FastEntityStatePdu.members, EntityInformationFamilyPdu.members, Pdu.members, PduSuperclass.members])) ?_
  refine .bind (.set' (by simp [attrOf_putAttr_isSome, attrOf, FastEntityStatePdu.members, EntityInformationFamilyPdu.members, Pdu.members, PduSuperclass.members])) ?_
  refine .bind (.set' (by simp [attrOf_putAttr_isSome, attrOf, FastEntityStatePdu.members, EntityInformationFamilyPdu.members, Pdu.members, PduSuperclass.members])) ?_
  refine .bind (.set' (by simp [attrOf_putAttr_isSome, attrOf, FastEntityStatePdu.members, EntityInformationFamilyPdu.members, Pdu.members, PduSuperclass.members])) ?_
  refine .bind (.set' (by simp [attrOf_putAttr_isSome, attrOf, FastEntityStatePdu.members, EntityInformationFamilyPdu.members, Pdu.members, PduSuperclass.members])) ?_
  refine .bind (.set' (by simp [attrOf_putAttr_isSome, attrOf, FastEntityStatePdu.members, EntityInformationFamilyPdu.members, Pdu.members, PduSuperclass.members])) ?_
  refine .bind (.set' (by simp [attrOf_putAttr_isSome, attrOf, FastEntityStatePdu.members, EntityInformationFamilyPdu.members, Pdu.members, PduSuperclass.members])) ?_
  refine .bind (.setOr' (.zeros 12) (by simp [attrOf_putAttr_isSome, attrOf, FastEntityStatePdu.members, EntityInformationFamilyPdu.members, Pdu.members, PduSuperclass.members])) ?_
  refine .bind (.set' (by simp [attrOf_putAttr_isSome, attrOf, FastEntityStatePdu.members, EntityInformationFamilyPdu.members, Pdu.members, PduSuperclass.members])) ?_
  exact .cast (.setOr' .empty (by simp [attrOf_putAttr_isSome, attrOf, FastEntityStatePdu.members, EntityInformationFamilyPdu.members, Pdu.members, PduSuperclass.members]))
    (by simp [putAttr, FastEntityStatePdu.members, EntityInformationFamilyPdu.members, Pdu.members, PduSuperclass.members, Tree.ints, Tree.objs, Tree.optInt, Tree.optObj, Tree.intOr])

theorem FastEntityStatePdu.makesNew : MakesNew FastEntityStatePdu.newHeap (.obj (FastEntityStatePdu.members FastEntityStatePdu.init)) :=
  .new (.cast (FastEntityStatePdu.inits 1 1 []) (List.append_nil _))

theorem FastEntityStatePdu.refines : Refines FastEntityStatePdu.members FastEntityStatePdu.parseInto FastEntityStatePdu.parseHeap := by
  unfold FastEntityStatePdu.parseInto FastEntityStatePdu.parseHeap
  refine .bind (.super EntityInformationFamilyPdu.refines (fun _ => rfl) (fun _ _ => rfl)) fun _ => ?_
  refine .bind .read fun _ => ?_
  refine .bind (.set' (fun o => by simp [FastEntityStatePdu.members, EntityInformationFamilyPdu.members, Pdu.members, PduSuperclass.members, attrOf]) (fun o => by simp [FastEntityStatePdu.members, EntityInformationFamilyPdu.members, Pdu.members, PduSuperclass.members, putAttr, Tree.optInt, Tree.intOr])) fun _ => ?_
  refine .bind .read fun _ => ?_
  refine .bind (.set' (fun o => by simp [FastEntityStatePdu.members, EntityInformationFamilyPdu.members, Pdu.members, PduSuperclass.members, attrOf]) (fun o => by simp [FastEntityStatePdu.members, EntityInformationFamilyPdu.members, Pdu.members, PduSuperclass.members, putAttr, Tree.optInt, Tree.intOr])) fun _ => ?_
  refine .bind .read fun _ => ?_
  refine .bind (.set' (fun o => by simp [FastEntityStatePdu.members, EntityInformationFamilyPdu.members, Pdu.members, PduSuperclass.members, attrOf]) (fun o => by simp [FastEntityStatePdu.members, EntityInformationFamilyPdu.members, Pdu.members, PduSuperclass.members, putAttr, Tree.optInt, Tree.intOr])) fun _ => ?_
  refine .bind .read fun _ => ?_
  refine .bind (.set' (fun o => by simp [FastEntityStatePdu.members, EntityInformationFamilyPdu.members, Pdu.members, PduSuperclass.members, attrOf]) (fun o => by simp [FastEntityStatePdu.members, EntityInformationFamilyPdu.members, Pdu.members, PduSuperclass.members, putAttr, Tree.optInt, Tree.intOr])) fun _ => ?_
  refine .bind .read fun _ => ?_
  refine .bind (.set' (fun o => by simp [FastEntityStatePdu.members, EntityInformationFamilyPdu.members, Pdu.members, PduSuperclass.members, attrOf]) (fun o => by simp [FastEntityStatePdu.members, EntityInformationFamilyPdu.members, Pdu.members, PduSuperclass.members, putAttr, Tree.optInt, Tree.intOr])) fun _ => ?_
  refine .bind .read fun _ => ?_
  refine .bind (.set' (fun o => by simp [FastEntityStatePdu.members, EntityInformationFamilyPdu.members, Pdu.members, PduSuperclass.members, attrOf]) (fun o => by simp [FastEntityStatePdu.members, EntityInformationFamilyPdu.members, Pdu.members, PduSuperclass.members, putAttr, Tree.optInt, Tree.intOr])) fun _ => ?_
  refine .bind .read fun _ => ?_
  refine .bind (.set' (fun o => by simp [FastEntityStatePdu.members, EntityInformationFamilyPdu.members, Pdu.members, PduSuperclass.members, attrOf]) (fun o => by simp [FastEntityStatePdu.members, EntityInformationFamilyPdu.members, Pdu.members, PduSuperclass.members, putAttr, Tree.optInt, Tree.intOr])) fun _ => ?_
  refine .bind .read fun _ => ?_
  refine .bind (.set' (fun o => by simp [FastEntityStatePdu.members, EntityInformationFamilyPdu.members, Pdu.members, PduSuperclass.members, attrOf]) (fun o => by simp [FastEntityStatePdu.members, EntityInformationFamilyPdu.members, Pdu.members, PduSuperclass.members, putAttr, Tree.optInt, Tree.intOr])) fun _ => ?_
  refine .bind .read fun _ => ?_
  refine .bind (.set' (fun o => by simp [FastEntityStatePdu.members, EntityInformationFamilyPdu.members, Pdu.members, PduSuperclass.members, attrOf]) (fun o => by simp [FastEntityStatePdu.members, EntityInformationFamilyPdu.members, Pdu.members, PduSuperclass.members, putAttr, Tree.optInt, Tree.intOr])) fun _ => ?_
  refine .bind .read fun _ => ?_
  refine .bind (.set' (fun o => by simp [FastEntityStatePdu.members, EntityInformationFamilyPdu.members, Pdu.members, PduSuperclass.members, attrOf]) (fun o => by simp [FastEntityStatePdu.members, EntityInformationFamilyPdu.members, Pdu.members, PduSuperclass.members, putAttr, Tree.optInt, Tree.intOr])) fun _ => ?_
  refine .bind .read fun _ => ?_
  refine .bind (.set' (fun o => by simp [FastEntityStatePdu.members, EntityInformationFamilyPdu.members, Pdu.members, PduSuperclass.members, attrOf]) (fun o => by simp [FastEntityStatePdu.members, EntityInformationFamilyPdu.members, Pdu.members, PduSuperclass.members, putAttr, Tree.optInt, Tree.intOr])) fun _ => ?_
  refine .bind .read fun _ => ?_
  refine .bind (.set' (fun o => by simp [FastEntityStatePdu.members, EntityInformationFamilyPdu.members, Pdu.members, PduSuperclass.members, attrOf]) (fun o => by simp [FastEntityStatePdu.members, EntityInformationFamilyPdu.members, Pdu.members, PduSuperclass.members, putAttr, Tree.optInt, Tree.intOr])) fun _ => ?_
  refine .bind .read fun _ => ?_
  refine .bind (.set' (fun o => by simp [FastEntityStatePdu.members, EntityInformationFamilyPdu.members, Pdu.members, PduSuperclass.members, attrOf]) (fun o => by simp [FastEntityStatePdu.members, EntityInformationFamilyPdu.members, Pdu.members, PduSuperclass.members, putAttr, Tree.optInt, Tree.intOr])) fun _ => ?_
  refine .bind .read fun _ => ?_
  refine .bind (.set' (fun o => by simp [FastEntityStatePdu.members, EntityInformationFamilyPdu.members, Pdu.members, PduSuperclass.members, attrOf]) (fun o => by simp [FastEntityStatePdu.members, EntityInformationFamilyPdu.members, Pdu.members, PduSuperclass.members, putAttr, Tree.optInt, Tree.intOr])) fun _ => ?_
  refine .bind .read fun _ => ?_
  refine .bind (.set' (fun o => by simp [FastEntityStatePdu.members, EntityInformationFamilyPdu.members, Pdu.members, PduSuperclass.members, attrOf]) (fun o => by simp [FastEntityStatePdu.members, EntityInformationFamilyPdu.members, Pdu.members, PduSuperclass.members, putAttr, Tree.optInt, Tree.intOr])) fun _ => ?_
  refine .bind .read fun _ => ?_
  refine .bind (.set' (fun o => by simp [FastEntityStatePdu.members, EntityInformationFamilyPdu.members, Pdu.members, PduSuperclass.members, attrOf]) (fun o => by simp [FastEntityStatePdu.members, EntityInformationFamilyPdu.members, Pdu.members, PduSuperclass.members, putAttr, Tree.optInt, Tree.intOr])) fun _ => ?_
  refine .bind .read fun _ => ?_
  refine .bind (.set' (fun o => by simp [FastEntityStatePdu.members, EntityInformationFamilyPdu.members, Pdu.members, PduSuperclass.members, attrOf]) (fun o => by simp [FastEntityStatePdu.members, EntityInformationFamilyPdu.members, Pdu.members, PduSuperclass.members, putAttr, Tree.optInt, Tree.intOr])) fun _ => ?_
  refine .bind .read fun _ => ?_
  refine .bind (.set' (fun o => by simp [FastEntityStatePdu.members, EntityInformationFamilyPdu.members, Pdu.members, PduSuperclass.members, attrOf]) (fun o => by simp [FastEntityStatePdu.members, EntityInformationFamilyPdu.members, Pdu.members, PduSuperclass.members, putAttr, Tree.optInt, Tree.intOr])) fun _ => ?_
  refine .bind .read fun _ => ?_
  refine .bind (.set' (fun o => by simp [FastEntityStatePdu.members, EntityInformationFamilyPdu.members, Pdu.members, PduSuperclass.members, attrOf]) (fun o => by simp [FastEntityStatePdu.members, EntityInformationFamilyPdu.members, Pdu.members, PduSuperclass.members, putAttr, Tree.optInt, Tree.intOr])) fun _ => ?_
  refine .bind .read fun _ => ?_
  refine .bind (.set' (fun o => by simp [FastEntityStatePdu.members, EntityInformationFamilyPdu.members, Pdu.members, PduSuperclass.members, attrOf]) (fun o => by simp [FastEntityStatePdu.members, EntityInformationFamilyPdu.members, Pdu.members, PduSuperclass.members, putAttr, Tree.optInt, Tree.intOr])) fun _ => ?_
  refine .bind .read fun _ => ?_
  refine .bind (.set' (fun o => by simp [FastEntityStatePdu.members, EntityInformationFamilyPdu.members, Pdu.members, PduSuperclass.members, attrOf]) (fun o => by simp [FastEntityStatePdu.members, EntityInformationFamilyPdu.members, Pdu.members, PduSuperclass.members, putAttr, Tree.optInt, Tree.intOr])) fun _ => ?_
  refine .bind .read fun _ => ?_
  refine .bind (.set' (fun o => by simp [FastEntityStatePdu.members, EntityInformationFamilyPdu.members, Pdu.members, PduSuperclass.members, attrOf]) (fun o => by simp [FastEntityStatePdu.members, EntityInformationFamilyPdu.members, Pdu.members, PduSuperclass.members, putAttr, Tree.optInt, Tree.intOr])) fun _ => ?_
  refine .bind .read fun _ => ?_
  refine .bind (.set' (fun o => by simp [FastEntityStatePdu.members, EntityInformationFamilyPdu.members, Pdu.members, PduSuperclass.members, attrOf]) (fun o => by simp [FastEntityStatePdu.members, EntityInformationFamilyPdu.members, Pdu.members, PduSuperclass.members, putAttr, Tree.optInt, Tree.intOr])) fun _ => ?_
  refine .bind .read fun _ => ?_
  refine .bind (.set' (fun o => by simp [FastEntityStatePdu.members, EntityInformationFamilyPdu.members, Pdu.members, PduSuperclass.members, attrOf]) (fun o => by simp [FastEntityStatePdu.members, EntityInformationFamilyPdu.members, Pdu.members, PduSuperclass.members, putAttr, Tree.optInt, Tree.intOr])) fun _ => ?_
  refine .bind .read fun _ => ?_
  refine .bind (.set' (fun o => by simp [FastEntityStatePdu.members, EntityInformationFamilyPdu.members, Pdu.members, PduSuperclass.members, attrOf]) (fun o => by simp [FastEntityStatePdu.members, EntityInformationFamilyPdu.members, Pdu.members, PduSuperclass.members, putAttr, Tree.optInt, Tree.intOr])) fun _ => ?_
  refine .bind .read fun _ => ?_
  refine .bind (.set' (fun o => by simp [FastEntityStatePdu.members, EntityInformationFamilyPdu.members, Pdu.members, PduSuperclass.members, attrOf]) (fun o => by simp [FastEntityStatePdu.members, EntityInformationFamilyPdu.members, Pdu.members, PduSuperclass.members, putAttr, Tree.optInt, Tree.intOr])) fun _ => ?_
  refine .bind .read fun _ => ?_
  refine .bind (.set' (fun o => by simp [FastEntityStatePdu.members, EntityInformationFamilyPdu.members, Pdu.members, PduSuperclass.members, attrOf]) (fun o => by simp [FastEntityStatePdu.members, EntityInformationFamilyPdu.members, Pdu.members, PduSuperclass.members, putAttr, Tree.optInt, Tree.intOr])) fun _ => ?_
  refine .bind .read fun _ => ?_
  refine .bind (.set' (fun o => by simp [FastEntityStatePdu.members, EntityInformationFamilyPdu.members, Pdu.members, PduSuperclass.members, attrOf]) (fun o => by simp [FastEntityStatePdu.members, EntityInformationFamilyPdu.members, Pdu.members, PduSuperclass.members, putAttr, Tree.optInt, Tree.intOr])) fun _ => ?_
  refine .bind .read fun _ => ?_
  refine .bind (.set' (fun o => by simp [FastEntityStatePdu.members, EntityInformationFamilyPdu.members, Pdu.members, PduSuperclass.members, attrOf]) (fun o => by simp [FastEntityStatePdu.members, EntityInformationFamilyPdu.members, Pdu.members, PduSuperclass.members, putAttr, Tree.optInt, Tree.intOr])) fun _ => ?_
  refine .bind .read fun _ => ?_
  refine .bind (.set' (fun o => by simp [FastEntityStatePdu.members, EntityInformationFamilyPdu.members, Pdu.members, PduSuperclass.members, attrOf]) (fun o => by simp [FastEntityStatePdu.members, EntityInformationFamilyPdu.members, Pdu.members, PduSuperclass.members, putAttr, Tree.optInt, Tree.intOr])) fun _ => ?_
  refine .bind (.fill ⟨fun _ _ => rfl, fun _ _ _ => rfl, fun _ => rfl⟩ (fun o => by simp [FastEntityStatePdu.members, EntityInformationFamilyPdu.members, Pdu.members, PduSuperclass.members, attrOf]) (fun o v => by simp [FastEntityStatePdu.members, EntityInformationFamilyPdu.members, Pdu.members, PduSuperclass.members, putAttr, Tree.optInt, Tree.intOr])) fun _ => ?_
  refine .bind .read fun _ => ?_
  refine .bind (.set' (fun o => by simp [FastEntityStatePdu.members, EntityInformationFamilyPdu.members, Pdu.members, PduSuperclass.members, attrOf]) (fun o => by simp [FastEntityStatePdu.members, EntityInformationFamilyPdu.members, Pdu.members, PduSuperclass.members, putAttr, Tree.optInt, Tree.intOr])) fun _ => ?_
  refine .bind .read fun _ => ?_
  refine .bind (.set' (fun o => by simp [FastEntityStatePdu.members, EntityInformationFamilyPdu.members, Pdu.members, PduSuperclass.members, attrOf]) (fun o => by simp [FastEntityStatePdu.members, EntityInformationFamilyPdu.members, Pdu.members, PduSuperclass.members, putAttr, Tree.optInt, Tree.intOr])) fun _ => ?_
  refine .bind .read fun _ => ?_
  refine .bind (.set' (fun o => by simp [FastEntityStatePdu.members, EntityInformationFamilyPdu.members, Pdu.members, PduSuperclass.members, attrOf]) (fun o => by simp [FastEntityStatePdu.members, EntityInformationFamilyPdu.members, Pdu.members, PduSuperclass.members, putAttr, Tree.optInt, Tree.intOr])) fun _ => ?_
  refine .bind .read fun _ => ?_
  refine .bind (.set' (fun o => by simp [FastEntityStatePdu.members, EntityInformationFamilyPdu.members, Pdu.members, PduSuperclass.members, attrOf]) (fun o => by simp [FastEntityStatePdu.members, EntityInformationFamilyPdu.members, Pdu.members, PduSuperclass.members, putAttr, Tree.optInt, Tree.intOr])) fun _ => ?_
  refine .bind .read fun _ => ?_
  refine .bind (.set' (fun o => by simp [FastEntityStatePdu.members, EntityInformationFamilyPdu.members, Pdu.members, PduSuperclass.members, attrOf]) (fun o => by simp [FastEntityStatePdu.members, EntityInformationFamilyPdu.members, Pdu.members, PduSuperclass.members, putAttr, Tree.optInt, Tree.intOr])) fun _ => ?_
  refine .bind .read fun _ => ?_
  refine .bind (.set' (fun o => by simp [FastEntityStatePdu.members, EntityInformationFamilyPdu.members, Pdu.members, PduSuperclass.members, attrOf]) (fun o => by simp [FastEntityStatePdu.members, EntityInformationFamilyPdu.members, Pdu.members, PduSuperclass.members, putAttr, Tree.optInt, Tree.intOr])) fun _ => ?_
  refine .bind (.fill ⟨fun _ _ => rfl, fun _ _ _ => rfl, fun _ => rfl⟩ (fun o => by simp [FastEntityStatePdu.members, EntityInformationFamilyPdu.members, Pdu.members, PduSuperclass.members, attrOf]) (fun o v => by simp [FastEntityStatePdu.members, EntityInformationFamilyPdu.members, Pdu.members, PduSuperclass.members, putAttr, Tree.optInt, Tree.intOr])) fun _ => ?_
  refine .bind .read fun _ => ?_
  refine .bind (.set' (fun o => by simp [FastEntityStatePdu.members, EntityInformationFamilyPdu.members, Pdu.members, PduSuperclass.members, attrOf]) (fun o => by simp [FastEntityStatePdu.members, EntityInformationFamilyPdu.members, Pdu.members, PduSuperclass.members, putAttr, Tree.optInt, Tree.intOr])) fun _ => ?_
  refine .bind (.objs VariableParameter.makesNew VariableParameter.refines (fun o => by simp [FastEntityStatePdu.members, EntityInformationFamilyPdu.members, Pdu.members, PduSuperclass.members, attrOf]) (fun o v => by simp [FastEntityStatePdu.members, EntityInformationFamilyPdu.members, Pdu.members, PduSuperclass.members, putAttr, Tree.optInt, Tree.intOr])) fun _ => ?_
  exact .pure

theorem FastEntityStatePdu.shows : Shows FastEntityStatePdu.members FastEntityStatePdu.serialize FastEntityStatePdu.serializeHeap := by
  unfold FastEntityStatePdu.serialize FastEntityStatePdu.serializeHeap
  refine .bind (.super EntityInformationFamilyPdu.shows (fun _ => rfl)) ?_
  refine .bind (.putInt (fun o => by simp [FastEntityStatePdu.members, EntityInformationFamilyPdu.members, Pdu.members, PduSuperclass.members, attrOf])) ?_
  refine .bind (.putInt (fun o => by simp [FastEntityStatePdu.members, EntityInformationFamilyPdu.members, Pdu.members, PduSuperclass.members, attrOf])) ?_
  refine .bind (.putInt (fun o => by simp [FastEntityStatePdu.members, EntityInformationFamilyPdu.members, Pdu.members, PduSuperclass.members, attrOf])) ?_
  refine .bind (.putInt (fun o => by simp [FastEntityStatePdu.members, EntityInformationFamilyPdu.members, Pdu.members, PduSuperclass.members, attrOf])) ?_
  refine .bind (.lenObjs (ts := VariableParameter.members) (fun o => by simp [FastEntityStatePdu.members, EntityInformationFamilyPdu.members, Pdu.members, PduSuperclass.members, attrOf])) ?_
  refine .bind (.putInt (fun o => by simp [FastEntityStatePdu.members, EntityInformationFamilyPdu.members, Pdu.members, PduSuperclass.members, attrOf])) ?_
  refine .bind (.putInt (fun o => by simp [FastEntityStatePdu.members, EntityInformationFamilyPdu.members, Pdu.members, PduSuperclass.members, attrOf])) ?_
  refine .bind (.putInt (fun o => by simp [FastEntityStatePdu.members, EntityInformationFamilyPdu.members, Pdu.members, PduSuperclass.members, attrOf])) ?_
  refine .bind (.putInt (fun o => by simp [FastEntityStatePdu.members, EntityInformationFamilyPdu.members, Pdu.members, PduSuperclass.members, attrOf])) ?_
  refine .bind (.putInt (fun o => by simp [FastEntityStatePdu.members, EntityInformationFamilyPdu.members, Pdu.members, PduSuperclass.members, attrOf])) ?_
  refine .bind (.putInt (fun o => by simp [FastEntityStatePdu.members, EntityInformationFamilyPdu.members, Pdu.members, PduSuperclass.members, attrOf])) ?_
  refine .bind (.putInt (fun o => by simp [FastEntityStatePdu.members, EntityInformationFamilyPdu.members, Pdu.members, PduSuperclass.members, attrOf])) ?_
  refine .bind (.putInt (fun o => by simp [FastEntityStatePdu.members, EntityInformationFamilyPdu.members, Pdu.members, PduSuperclass.members, attrOf])) ?_
  refine .bind (.putInt (fun o => by simp [FastEntityStatePdu.members, EntityInformationFamilyPdu.members, Pdu.members, PduSuperclass.members, attrOf])) ?_
  refine .bind (.putInt (fun o => by simp [FastEntityStatePdu.members, EntityInformationFamilyPdu.members, Pdu.members, PduSuperclass.members, attrOf])) ?_
  refine .bind (.putInt (fun o => by simp [FastEntityStatePdu.members, EntityInformationFamilyPdu.members, Pdu.members, PduSuperclass.members, attrOf])) ?_
  refine .bind (.putInt (fun o => by simp [FastEntityStatePdu.members, EntityInformationFamilyPdu.members, Pdu.members, PduSuperclass.members, attrOf])) ?_
  refine .bind (.putInt (fun o => by simp [FastEntityStatePdu.members, EntityInformationFamilyPdu.members, Pdu.members, PduSuperclass.members, attrOf])) ?_
  refine .bind (.putInt (fun o => by simp [FastEntityStatePdu.members, EntityInformationFamilyPdu.members, Pdu.members, PduSuperclass.members, attrOf])) ?_
  refine .bind (.putFloat (fun o => by simp [FastEntityStatePdu.members, EntityInformationFamilyPdu.members, Pdu.members, PduSuperclass.members, attrOf])) ?_
  refine .bind (.putFloat (fun o => by simp [FastEntityStatePdu.members, EntityInformationFamilyPdu.members, Pdu.members, PduSuperclass.members, attrOf])) ?_
  refine .bind (.putFloat (fun o => by simp [FastEntityStatePdu.members, EntityInformationFamilyPdu.members, Pdu.members, PduSuperclass.members, attrOf])) ?_
  refine .bind (.putFloat (fun o => by simp [FastEntityStatePdu.members, EntityInformationFamilyPdu.members, Pdu.members, PduSuperclass.members, attrOf])) ?_
  refine .bind (.putFloat (fun o => by simp [FastEntityStatePdu.members, EntityInformationFamilyPdu.members, Pdu.members, PduSuperclass.members, attrOf])) ?_
  refine .bind (.putFloat (fun o => by simp [FastEntityStatePdu.members, EntityInformationFamilyPdu.members, Pdu.members, PduSuperclass.members, attrOf])) ?_
  refine .bind (.putFloat (fun o => by simp [FastEntityStatePdu.members, EntityInformationFamilyPdu.members, Pdu.members, PduSuperclass.members, attrOf])) ?_
  refine .bind (.putFloat (fun o => by simp [FastEntityStatePdu.members, EntityInformationFamilyPdu.members, Pdu.members, PduSuperclass.members, attrOf])) ?_
  refine .bind (.putFloat (fun o => by simp [FastEntityStatePdu.members, EntityInformationFamilyPdu.members, Pdu.members, PduSuperclass.members, attrOf])) ?_
  refine .bind (.putInt (fun o => by simp [FastEntityStatePdu.members, EntityInformationFamilyPdu.members, Pdu.members, PduSuperclass.members, attrOf])) ?_
  refine .bind (.putInt (fun o => by simp [FastEntityStatePdu.members, EntityInformationFamilyPdu.members, Pdu.members, PduSuperclass.members, attrOf])) ?_
  refine .bind (.items (fun o => by simp [FastEntityStatePdu.members, EntityInformationFamilyPdu.members, Pdu.members, PduSuperclass.members, attrOf])) ?_
  refine .bind (.putFloat (fun o => by simp [FastEntityStatePdu.members, EntityInformationFamilyPdu.members, Pdu.members, PduSuperclass.members, attrOf])) ?_
  refine .bind (.putFloat (fun o => by simp [FastEntityStatePdu.members, EntityInformationFamilyPdu.members, Pdu.members, PduSuperclass.members, attrOf])) ?_
  refine .bind (.putFloat (fun o => by simp [FastEntityStatePdu.members, EntityInformationFamilyPdu.members, Pdu.members, PduSuperclass.members, attrOf])) ?_
  refine .bind (.putFloat (fun o => by simp [FastEntityStatePdu.members, EntityInformationFamilyPdu.members, Pdu.members, PduSuperclass.members, attrOf])) ?_
  refine .bind (.putFloat (fun o => by simp [FastEntityStatePdu.members, EntityInformationFamilyPdu.members, Pdu.members, PduSuperclass.members, attrOf])) ?_
  refine .bind (.putFloat (fun o => by simp [FastEntityStatePdu.members, EntityInformationFamilyPdu.members, Pdu.members, PduSuperclass.members, attrOf])) ?_
  refine .bind (.items (fun o => by simp [FastEntityStatePdu.members, EntityInformationFamilyPdu.members, Pdu.members, PduSuperclass.members, attrOf])) ?_
  refine .bind (.putInt (fun o => by simp [FastEntityStatePdu.members, EntityInformationFamilyPdu.members, Pdu.members, PduSuperclass.members, attrOf])) ?_
  exact .eachObj VariableParameter.shows (fun o => by simp [FastEntityStatePdu.members, EntityInformationFamilyPdu.members, Pdu.members, PduSuperclass.members, attrOf])

theorem AcknowledgeReliablePdu.inits (p pf : Int) (ex : List (String × Tree)) : Inits (fun self => AcknowledgeReliablePdu.initHeap self)
      (([("protocolVersion", .sc .absent), ("exerciseID", .sc .absent), ("pduType", .sc (.int p)), ("protocolFamily", .sc (.int pf)), ("timestamp", .sc .absent), ("length", .sc .absent)] : List (String × Tree)) ++
      (([("pduStatus", .sc .absent), ("padding", .sc .absent)] : List (String × Tree)) ++
      (([("originatingEntityID", .sc .absent), ("receivingEntityID", .sc .absent)] : List (String × Tree)) ++
      (([("acknowledgeFlag", .sc .absent), ("responseFlag", .sc .absent), ("requestID", .sc .absent)] : List (String × Tree)) ++ ex))))
      (AcknowledgeReliablePdu.members { pduType := p, protocolFamily := pf } ++ ex) := by
  unfold AcknowledgeReliablePdu.initHeap
  refine .bind (SimulationManagementWithReliabilityFamilyPdu.inits p pf _) ?_
  refine .bind (.set' (by simp [attrOf_putAttr_isSome, attrOf, AcknowledgeReliablePdu.members, SimulationManagementWithReliabilityFamilyPdu.members, Pdu.members, PduSuperclass.members])) ?_
  refine .bind (.set' (by simp [attrOf_putAttr_isSome, attrOf, AcknowledgeReliablePdu.members, SimulationManagementWithReliabilityFamilyPdu.members, Pdu.members, PduSuperclass.members])) ?_
  exact .cast (.set' (by simp [attrOf_putAttr_isSome, attrOf, AcknowledgeReliablePdu.members, SimulationManagementWithReliabilityFamilyPdu.members, Pdu.members, PduSuperclass.members]))
    (by simp [putAttr, AcknowledgeReliablePdu.members, SimulationManagementWithReliabilityFamilyPdu.members, Pdu.members, PduSuperclass.members, Tree.ints, Tree.objs, Tree.optInt, Tree.optObj, Tree.intOr])

theorem AcknowledgeReliablePdu.makesNew : MakesNew AcknowledgeReliablePdu.newHeap (.obj (AcknowledgeReliablePdu.members AcknowledgeReliablePdu.init)) :=
  .new (.cast (AcknowledgeReliablePdu.inits 55 10 []) (List.append_nil _))

theorem AcknowledgeReliablePdu.refines : Refines AcknowledgeReliablePdu.members AcknowledgeReliablePdu.parseInto AcknowledgeReliablePdu.parseHeap := by
  unfold AcknowledgeReliablePdu.parseInto AcknowledgeReliablePdu.parseHeap
  refine .bind (.super SimulationManagementWithReliabilityFamilyPdu.refines (fun _ => rfl) (fun _ _ => rfl)) fun _ => ?_
  refine .bind .read fun _ => ?_
  refine .bind (.set' (fun o => by simp [AcknowledgeReliablePdu.members, SimulationManagementWithReliabilityFamilyPdu.members, Pdu.members, PduSuperclass.members, attrOf]) (fun o => by simp [AcknowledgeReliablePdu.members, SimulationManagementWithReliabilityFamilyPdu.members, Pdu.members, PduSuperclass.members, putAttr, Tree.optInt, Tree.intOr])) fun _ => ?_
  refine .bind .read fun _ => ?_
  refine .bind (.set' (fun o => by simp [AcknowledgeReliablePdu.members, SimulationManagementWithReliabilityFamilyPdu.members, Pdu.members, PduSuperclass.members, attrOf]) (fun o => by simp [AcknowledgeReliablePdu.members, SimulationManagementWithReliabilityFamilyPdu.members, Pdu.members, PduSuperclass.members, putAttr, Tree.optInt, Tree.intOr])) fun _ => ?_
  refine .bind .read fun _ => ?_
  refine .bind (.set' (fun o => by simp [AcknowledgeReliablePdu.members, SimulationManagementWithReliabilityFamilyPdu.members, Pdu.members, PduSuperclass.members, attrOf]) (fun o => by simp [AcknowledgeReliablePdu.members, SimulationManagementWithReliabilityFamilyPdu.members, Pdu.members, PduSuperclass.members, putAttr, Tree.optInt, Tree.intOr])) fun _ => ?_
  exact .pure

theorem AcknowledgeReliablePdu.shows : Shows AcknowledgeReliablePdu.members AcknowledgeReliablePdu.serialize AcknowledgeReliablePdu.serializeHeap := by
  unfold AcknowledgeReliablePdu.serialize AcknowledgeReliablePdu.serializeHeap
  refine .bind (.super SimulationManagementWithReliabilityFamilyPdu.shows (fun _ => rfl)) ?_
  refine .bind (.putInt (fun o => by simp [AcknowledgeReliablePdu.members, SimulationManagementWithReliabilityFamilyPdu.members, Pdu.members, PduSuperclass.members, attrOf])) ?_
  refine .bind (.putInt (fun o => by simp [AcknowledgeReliablePdu.members, SimulationManagementWithReliabilityFamilyPdu.members, Pdu.members, PduSuperclass.members, attrOf])) ?_
  exact .putInt (fun o => by simp [AcknowledgeReliablePdu.members, SimulationManagementWithReliabilityFamilyPdu.members, Pdu.members, PduSuperclass.members, attrOf])

theorem StartResumeReliablePdu.inits (p pf : Int) (ex : List (String × Tree)) : Inits (fun self => StartResumeReliablePdu.initHeap self)
      (([("protocolVersion", .sc .absent), ("exerciseID", .sc .absent), ("pduType", .sc (.int p)), ("protocolFamily", .sc (.int pf)), ("timestamp", .sc .absent), ("length", .sc .absent)] : List (String × Tree)) ++
      (([("pduStatus", .sc .absent), ("padding", .sc .absent)] : List (String × Tree)) ++
      (([("originatingEntityID", .sc .absent), ("receivingEntityID", .sc .absent)] : List (String × Tree)) ++
      (([("realWorldTime", .sc .absent), ("simulationTime", .sc .absent), ("requiredReliabilityService", .sc .absent), ("pad1", .sc .absent), ("pad2", .sc .absent), ("requestID", .sc .absent)] : List (String × Tree)) ++ ex))))
      (StartResumeReliablePdu.members { pduType := p, protocolFamily := pf } ++ ex) := by
  unfold StartResumeReliablePdu.initHeap
  refine .bind (SimulationManagementWithReliabilityFamilyPdu.inits p pf _) ?_
  refine .bind (.setOr' ClockTime.makesNew (by simp [attrOf_putAttr_isSome, attrOf, StartResumeReliablePdu.members, SimulationManagementWithReliabilityFamilyPdu.members, Pdu.members, PduSuperclass.members])) ?_
  refine .bind (.setOr' ClockTime.makesNew (by simp [attrOf_putAttr_isSome, attrOf, StartResumeReliablePdu.members, SimulationManagementWithReliabilityFamilyPdu.members, Pdu.members, PduSuperclass.members])) ?_
  refine .bind (.set' (by simp [attrOf_putAttr_isSome, attrOf, StartResumeReliablePdu.members, SimulationManagementWithReliabilityFamilyPdu.members, Pdu.members, PduSuperclass.members])) ?_
  refine .bind (.set' (by simp [attrOf_putAttr_isSome, attrOf, StartResumeReliablePdu.members, SimulationManagementWithReliabilityFamilyPdu.members, Pdu.members, PduSuperclass.members])) ?_
  refine .bind (.set' (by simp [attrOf_putAttr_isSome, attrOf, StartResumeReliablePdu.members, SimulationManagementWithReliabilityFamilyPdu.members, Pdu.members, PduSuperclass.members])) ?_
  exact .cast (.set' (by simp [attrOf_putAttr_isSome, attrOf, StartResumeReliablePdu.members, SimulationManagementWithReliabilityFamilyPdu.members, Pdu.members, PduSuperclass.members]))
    (by simp [putAttr, StartResumeReliablePdu.members, SimulationManagementWithReliabilityFamilyPdu.members, Pdu.members, PduSuperclass.members, Tree.ints, Tree.objs, Tree.optInt, Tree.optObj, Tree.intOr])

theorem StartResumeReliablePdu.makesNew : MakesNew StartResumeReliablePdu.newHeap (.obj (StartResumeReliablePdu.members StartResumeReliablePdu.init)) :=
  .new (.cast (StartResumeReliablePdu.inits 53 10 []) (List.append_nil _))

theorem StartResumeReliablePdu.refines : Refines StartResumeReliablePdu.members StartResumeReliablePdu.parseInto StartResumeReliablePdu.parseHeap := by
  unfold StartResumeReliablePdu.parseInto StartResumeReliablePdu.parseHeap
  refine .bind (.super SimulationManagementWithReliabilityFamilyPdu.refines (fun _ => rfl) (fun _ _ => rfl)) fun _ => ?_
  refine .bind (.call' ClockTime.refines (fun o => by simp [StartResumeReliablePdu.members, SimulationManagementWithReliabilityFamilyPdu.members, Pdu.members, PduSuperclass.members, attrOf]) (fun o v => by simp [StartResumeReliablePdu.members, SimulationManagementWithReliabilityFamilyPdu.members, Pdu.members, PduSuperclass.members, putAttr, Tree.optInt, Tree.intOr])) fun _ => ?_
  refine .bind (.call' ClockTime.refines (fun o => by simp [StartResumeReliablePdu.members, SimulationManagementWithReliabilityFamilyPdu.members, Pdu.members, PduSuperclass.members, attrOf]) (fun o v => by simp [StartResumeReliablePdu.members, SimulationManagementWithReliabilityFamilyPdu.members, Pdu.members, PduSuperclass.members, putAttr, Tree.optInt, Tree.intOr])) fun _ => ?_
  refine .bind .read fun _ => ?_
  refine .bind (.set' (fun o => by simp [StartResumeReliablePdu.members, SimulationManagementWithReliabilityFamilyPdu.members, Pdu.members, PduSuperclass.members, attrOf]) (fun o => by simp [StartResumeReliablePdu.members, SimulationManagementWithReliabilityFamilyPdu.members, Pdu.members, PduSuperclass.members, putAttr, Tree.optInt, Tree.intOr])) fun _ => ?_
  refine .bind .read fun _ => ?_
  refine .bind (.set' (fun o => by simp [StartResumeReliablePdu.members, SimulationManagementWithReliabilityFamilyPdu.members, Pdu.members, PduSuperclass.members, attrOf]) (fun o => by simp [StartResumeReliablePdu.members, SimulationManagementWithReliabilityFamilyPdu.members, Pdu.members, PduSuperclass.members, putAttr, Tree.optInt, Tree.intOr])) fun _ => ?_
  refine .bind .read fun _ => ?_
  refine .bind (.set' (fun o => by simp [StartResumeReliablePdu.members, SimulationManagementWithReliabilityFamilyPdu.members, Pdu.members, PduSuperclass.members, attrOf]) (fun o => by simp [StartResumeReliablePdu.members, SimulationManagementWithReliabilityFamilyPdu.members, Pdu.members, PduSuperclass.members, putAttr, Tree.optInt, Tree.intOr])) fun _ => ?_
  refine .bind .read fun _ => ?_
  refine .bind (.set' (fun o => by simp [StartResumeReliablePdu.members, SimulationManagementWithReliabilityFamilyPdu.members, Pdu.members, PduSuperclass.members, attrOf]) (fun o => by simp [StartResumeReliablePdu.members, SimulationManagementWithReliabilityFamilyPdu.members, Pdu.members, PduSuperclass.members, putAttr, Tree.optInt, Tree.intOr])) fun _ => ?_
  exact .pure

theorem StartResumeReliablePdu.shows : Shows StartResumeReliablePdu.members StartResumeReliablePdu.serialize StartResumeReliablePdu.serializeHeap := by
  unfold StartResumeReliablePdu.serialize StartResumeReliablePdu.serializeHeap
  refine .bind (.super SimulationManagementWithReliabilityFamilyPdu.shows (fun _ => rfl)) ?_
  refine .bind (.call ClockTime.shows (fun o => by simp [StartResumeReliablePdu.members, SimulationManagementWithReliabilityFamilyPdu.members, Pdu.members, PduSuperclass.members, attrOf])) ?_
  refine .bind (.call ClockTime.shows (fun o => by simp [StartResumeReliablePdu.members, SimulationManagementWithReliabilityFamilyPdu.members, Pdu.members, PduSuperclass.members, attrOf])) ?_
  refine .bind (.putInt (fun o => by simp [StartResumeReliablePdu.members, SimulationManagementWithReliabilityFamilyPdu.members, Pdu.members, PduSuperclass.members, attrOf])) ?_
  refine .bind (.putInt (fun o => by simp [StartResumeReliablePdu.members, SimulationManagementWithReliabilityFamilyPdu.members, Pdu.members, PduSuperclass.members, attrOf])) ?_
  refine .bind (.putInt (fun o => by simp [StartResumeReliablePdu.members, SimulationManagementWithReliabilityFamilyPdu.members, Pdu.members, PduSuperclass.members, attrOf])) ?_
  exact .putInt (fun o => by simp [StartResumeReliablePdu.members, SimulationManagementWithReliabilityFamilyPdu.members, Pdu.members, PduSuperclass.members, attrOf])

theorem ArealObjectStatePdu.inits (p pf : Int) (ex : List (String × Tree)) : Inits (fun self => ArealObjectStatePdu.initHeap self)
      (([("protocolVersion", .sc .absent), ("exerciseID", .sc .absent), ("pduType", .sc (.int p)), ("protocolFamily", .sc (.int pf)), ("timestamp", .sc .absent), ("length", .sc .absent)] : List (String × Tree)) ++
      (([("pduStatus", .sc .absent), ("padding", .sc .absent)] : List (String × Tree)) ++
      ([] ++
      (([("objectID", .sc .absent), ("referencedObjectID", .sc .absent), ("updateNumber", .sc .absent), ("forceID", .sc .absent), ("modifications", .sc .absent), ("objectType", .sc .absent), ("specificObjectAppearance", .sc .absent), ("generalObjectAppearance", .sc .absent), ("requesterID", .sc .absent), ("receivingID", .sc .absent), ("objectLocation", .sc .absent)] : List (String × Tree)) ++ ex))))
      (ArealObjectStatePdu.members { pduType := p, protocolFamily := pf } ++ ex) := by
  unfold ArealObjectStatePdu.initHeap
  refine .bind (SyntheticEnvironmentFamilyPdu.inits p pf _) ?_
  refine .bind (.setOr' EntityIdentifier.makesNew (by simp [attrOf_putAttr_isSome, attrOf, ArealObjectStatePdu.members, SyntheticEnvironmentFamilyPdu.members, Pdu.members, PduSuperclass.members])) ?_
  refine .bind (.setOr' EntityIdentifier.makesNew (by simp [attrOf_putAttr_isSome, attrOf, ArealObjectStatePdu.members, SyntheticEnvironmentFamilyPdu.members, Pdu.members, PduSuperclass.members])) ?_
  refine .bind (.set' (by simp [attrOf_putAttr_isSome, attrOf, ArealObjectStatePdu.members, SyntheticEnvironmentFamilyPdu.members, Pdu.members, PduSuperclass.members])) ?_
  refine .bind (.set' (by simp [attrOf_putAttr_isSome, attrOf, ArealObjectStatePdu.members, SyntheticEnvironmentFamilyPdu.members, Pdu.members, PduSuperclass.members])) ?_
  refine .bind (.set' (by simp [attrOf_putAttr_isSome, attrOf, ArealObjectStatePdu.members, SyntheticEnvironmentFamilyPdu.members, Pdu.members, PduSuperclass.members])) ?_
  refine .bind (.setOr' ObjectType.makesNew (by simp [attrOf_putAttr_isSome, attrOf, ArealObjectStatePdu.members, SyntheticEnvironmentFamilyPdu.members, Pdu.members, PduSuperclass.members])) ?_
  refine .bind (.set' (by simp [attrOf_putAttr_isSome, attrOf, ArealObjectStatePdu.members, SyntheticEnvironmentFamilyPdu.members, Pdu.members, PduSuperclass.members])) ?_
  refine .bind (.set' (by simp [attrOf_putAttr_isSome, attrOf, ArealObjectStatePdu.members, SyntheticEnvironmentFamilyPdu.members, Pdu.members, PduSuperclass.members])) ?_
  refine .bind (.setOr' SimulationAddress.makesNew (by simp [attrOf_putAttr_isSome, attrOf, ArealObjectStatePdu.members, SyntheticEnvironmentFamilyPdu.members, Pdu.members, PduSuperclass.members])) ?_
  refine .bind (.setOr' SimulationAddress.makesNew (by simp [attrOf_putAttr_isSome, attrOf, ArealObjectStatePdu.members, SyntheticEnvironmentFamilyPdu.members, Pdu.members, PduSuperclass.members])) ?_
  exact .cast (.setOr' .empty (by simp [attrOf_putAttr_isSome, attrOf, ArealObjectStatePdu.members, SyntheticEnvironmentFamilyPdu.members, Pdu.members, PduSuperclass.members]))
    (by simp [putAttr, ArealObjectStatePdu.members, SyntheticEnvironmentFamilyPdu.members, Pdu.members, PduSuperclass.members, Tree.ints, Tree.objs, Tree.optInt, Tree.optObj, Tree.intOr])

theorem ArealObjectStatePdu.makesNew : MakesNew ArealObjectStatePdu.newHeap (.obj (ArealObjectStatePdu.members ArealObjectStatePdu.init)) :=
  .new (.cast (ArealObjectStatePdu.inits 45 9 []) (List.append_nil _))

theorem ArealObjectStatePdu.refines : Refines ArealObjectStatePdu.members ArealObjectStatePdu.parseInto ArealObjectStatePdu.parseHeap := by
  unfold ArealObjectStatePdu.parseInto ArealObjectStatePdu.parseHeap
  refine .bind (.super SyntheticEnvironmentFamilyPdu.refines (fun _ => rfl) (fun _ _ => rfl)) fun _ => ?_
  refine .bind (.call' EntityIdentifier.refines (fun o => by simp [ArealObjectStatePdu.members, SyntheticEnvironmentFamilyPdu.members, Pdu.members, PduSuperclass.members, attrOf]) (fun o v => by simp [ArealObjectStatePdu.members, SyntheticEnvironmentFamilyPdu.members, Pdu.members, PduSuperclass.members, putAttr, Tree.optInt, Tree.intOr])) fun _ => ?_
  refine .bind (.call' EntityIdentifier.refines (fun o => by simp [ArealObjectStatePdu.members, SyntheticEnvironmentFamilyPdu.members, Pdu.members, PduSuperclass.members, attrOf]) (fun o v => by simp [ArealObjectStatePdu.members, SyntheticEnvironmentFamilyPdu.members, Pdu.members, PduSuperclass.members, putAttr, Tree.optInt, Tree.intOr])) fun _ => ?_
  refine .bind .read fun _ => ?_
  refine .bind (.set' (fun o => by simp [ArealObjectStatePdu.members, SyntheticEnvironmentFamilyPdu.members, Pdu.members, PduSuperclass.members, attrOf]) (fun o => by simp [ArealObjectStatePdu.members, SyntheticEnvironmentFamilyPdu.members, Pdu.members, PduSuperclass.members, putAttr, Tree.optInt, Tree.intOr])) fun _ => ?_
  refine .bind .read fun _ => ?_
  refine .bind (.set' (fun o => by simp [ArealObjectStatePdu.members, SyntheticEnvironmentFamilyPdu.members, Pdu.members, PduSuperclass.members, attrOf]) (fun o => by simp [ArealObjectStatePdu.members, SyntheticEnvironmentFamilyPdu.members, Pdu.members, PduSuperclass.members, putAttr, Tree.optInt, Tree.intOr])) fun _ => ?_
  refine .bind .read fun _ => ?_
  refine .bind (.set' (fun o => by simp [ArealObjectStatePdu.members, SyntheticEnvironmentFamilyPdu.members, Pdu.members, PduSuperclass.members, attrOf]) (fun o => by simp [ArealObjectStatePdu.members, SyntheticEnvironmentFamilyPdu.members, Pdu.members, PduSuperclass.members, putAttr, Tree.optInt, Tree.intOr])) fun _ => ?_
  refine .bind (.call' ObjectType.refines (fun o => by simp [ArealObjectStatePdu.members, SyntheticEnvironmentFamilyPdu.members, Pdu.members, PduSuperclass.members, attrOf]) (fun o v => by simp [ArealObjectStatePdu.members, SyntheticEnvironmentFamilyPdu.members, Pdu.members, PduSuperclass.members, putAttr, Tree.optInt, Tree.intOr])) fun _ => ?_
  refine .bind .read fun _ => ?_
  refine .bind (.set' (fun o => by simp [ArealObjectStatePdu.members, SyntheticEnvironmentFamilyPdu.members, Pdu.members, PduSuperclass.members, attrOf]) (fun o => by simp [ArealObjectStatePdu.members, SyntheticEnvironmentFamilyPdu.members, Pdu.members, PduSuperclass.members, putAttr, Tree.optInt, Tree.intOr])) fun _ => ?_
  refine .bind .read fun _ => ?_
  refine .bind (.set' (fun o => by simp [ArealObjectStatePdu.members, SyntheticEnvironmentFamilyPdu.members, Pdu.members, PduSuperclass.members, attrOf]) (fun o => by simp [ArealObjectStatePdu.members, SyntheticEnvironmentFamilyPdu.members, Pdu.members, PduSuperclass.members, putAttr, Tree.optInt, Tree.intOr])) fun _ => ?_
  refine .bind .read fun _ => ?_
  refine .bind (.call' SimulationAddress.refines (fun o => by simp [ArealObjectStatePdu.members, SyntheticEnvironmentFamilyPdu.members, Pdu.members, PduSuperclass.members, attrOf]) (fun o v => by simp [ArealObjectStatePdu.members, SyntheticEnvironmentFamilyPdu.members, Pdu.members, PduSuperclass.members, putAttr, Tree.optInt, Tree.intOr])) fun _ => ?_
  refine .bind (.call' SimulationAddress.refines (fun o => by simp [ArealObjectStatePdu.members, SyntheticEnvironmentFamilyPdu.members, Pdu.members, PduSuperclass.members, attrOf]) (fun o v => by simp [ArealObjectStatePdu.members, SyntheticEnvironmentFamilyPdu.members, Pdu.members, PduSuperclass.members, putAttr, Tree.optInt, Tree.intOr])) fun _ => ?_
  refine .bind (.objs WorldCoordinates.makesNew WorldCoordinates.refines (fun o => by simp [ArealObjectStatePdu.members, SyntheticEnvironmentFamilyPdu.members, Pdu.members, PduSuperclass.members, attrOf]) (fun o v => by simp [ArealObjectStatePdu.members, SyntheticEnvironmentFamilyPdu.members, Pdu.members, PduSuperclass.members, putAttr, Tree.optInt, Tree.intOr])) fun _ => ?_
  exact .pure

theorem ArealObjectStatePdu.shows : Shows ArealObjectStatePdu.members ArealObjectStatePdu.serialize ArealObjectStatePdu.serializeHeap := by
  unfold ArealObjectStatePdu.serialize ArealObjectStatePdu.serializeHeap
  refine .bind (.super SyntheticEnvironmentFamilyPdu.shows (fun _ => rfl)) ?_
  refine .bind (.call EntityIdentifier.shows (fun o => by simp [ArealObjectStatePdu.members, SyntheticEnvironmentFamilyPdu.members, Pdu.members, PduSuperclass.members, attrOf])) ?_
  refine .bind (.call EntityIdentifier.shows (fun o => by simp [ArealObjectStatePdu.members, SyntheticEnvironmentFamilyPdu.members, Pdu.members, PduSuperclass.members, attrOf])) ?_
  refine .bind (.putInt (fun o => by simp [ArealObjectStatePdu.members, SyntheticEnvironmentFamilyPdu.members, Pdu.members, PduSuperclass.members, attrOf])) ?_
  refine .bind (.putInt (fun o => by simp [ArealObjectStatePdu.members, SyntheticEnvironmentFamilyPdu.members, Pdu.members, PduSuperclass.members, attrOf])) ?_
  refine .bind (.putInt (fun o => by simp [ArealObjectStatePdu.members, SyntheticEnvironmentFamilyPdu.members, Pdu.members, PduSuperclass.members, attrOf])) ?_
  refine .bind (.call ObjectType.shows (fun o => by simp [ArealObjectStatePdu.members, SyntheticEnvironmentFamilyPdu.members, Pdu.members, PduSuperclass.members, attrOf])) ?_
  refine .bind (.putInt (fun o => by simp [ArealObjectStatePdu.members, SyntheticEnvironmentFamilyPdu.members, Pdu.members, PduSuperclass.members, attrOf])) ?_
  refine .bind (.putInt (fun o => by simp [ArealObjectStatePdu.members, SyntheticEnvironmentFamilyPdu.members, Pdu.members, PduSuperclass.members, attrOf])) ?_
  refine .bind (.lenObjs (ts := WorldCoordinates.members) (fun o => by simp [ArealObjectStatePdu.members, SyntheticEnvironmentFamilyPdu.members, Pdu.members, PduSuperclass.members, attrOf])) ?_
  refine .bind (.call SimulationAddress.shows (fun o => by simp [ArealObjectStatePdu.members, SyntheticEnvironmentFamilyPdu.members, Pdu.members, PduSuperclass.members, attrOf])) ?_
  refine .bind (.call SimulationAddress.shows (fun o => by simp [ArealObjectStatePdu.members, SyntheticEnvironmentFamilyPdu.members, Pdu.members, PduSuperclass.members, attrOf])) ?_
  exact .eachObj WorldCoordinates.shows (fun o => by simp [ArealObjectStatePdu.members, SyntheticEnvironmentFamilyPdu.members, Pdu.members, PduSuperclass.members, attrOf])

theorem DataQueryReliablePdu.inits (p pf : Int) (ex : List (String × Tree)) : Inits (fun self => DataQueryReliablePdu.initHeap self)
      (([("protocolVersion", .sc .absent), ("exerciseID", .sc .absent), ("pduType", .sc (.int p)), ("protocolFamily", .sc (.int pf)), ("timestamp", .sc .absent), ("length", .sc .absent)] : List (String × Tree)) ++
      (([("pduStatus", .sc .absent), ("padding", .sc .absent)] : List (String × Tree)) ++
      (([("originatingEntityID", .sc .absent), ("receivingEntityID", .sc .absent)] : List (String × Tree)) ++
      (([("requiredReliabilityService", .sc .absent), ("pad1", .sc .absent), ("pad2", .sc .absent), ("requestID", .sc .absent), ("timeInterval", .sc .absent), ("_dataQuery", .sc .absent)] : List (String × Tree)) ++ ex))))
      (DataQueryReliablePdu.members { pduType := p, protocolFamily := pf } ++ ex) := by
  unfold DataQueryReliablePdu.initHeap
  refine .bind (SimulationManagementWithReliabilityFamilyPdu.inits p pf _) ?_
  refine .bind (.set' (by simp [attrOf_putAttr_isSome, attrOf, DataQueryReliablePdu.members, SimulationManagementWithReliabilityFamilyPdu.members, Pdu.members, PduSuperclass.members])) ?_
  refine .bind (.set' (by simp [attrOf_putAttr_isSome, attrOf, DataQueryReliablePdu.members, SimulationManagementWithReliabilityFamilyPdu.members, Pdu.members, PduSuperclass.members])) ?_
  refine .bind (.set' (by simp [attrOf_putAttr_isSome, attrOf, DataQueryReliablePdu.members, SimulationManagementWithReliabilityFamilyPdu.members, Pdu.members, PduSuperclass.members])) ?_
  refine .bind (.set' (by simp [attrOf_putAttr_isSome, attrOf, DataQueryReliablePdu.members, SimulationManagementWithReliabilityFamilyPdu.members, Pdu.members, PduSuperclass.members])) ?_
  refine .bind (.set' (by simp [attrOf_putAttr_isSome, attrOf, DataQueryReliablePdu.members, SimulationManagementWithReliabilityFamilyPdu.members, Pdu.members, PduSuperclass.members])) ?_
  exact .cast (.setNew' DataQueryDatumSpecification.makesNew' (by simp [attrOf_putAttr_isSome, attrOf, DataQueryReliablePdu.members, SimulationManagementWithReliabilityFamilyPdu.members, Pdu.members, PduSuperclass.members]))
    (by simp [putAttr, DataQueryReliablePdu.members, SimulationManagementWithReliabilityFamilyPdu.members, Pdu.members, PduSuperclass.members, Tree.ints, Tree.objs, Tree.optInt, Tree.optObj, Tree.intOr])

theorem DataQueryReliablePdu.makesNew : MakesNew DataQueryReliablePdu.newHeap (.obj (DataQueryReliablePdu.members DataQueryReliablePdu.init)) :=
  .new (.cast (DataQueryReliablePdu.inits 58 10 []) (List.append_nil _))

theorem DataQueryReliablePdu.refines : Refines DataQueryReliablePdu.members DataQueryReliablePdu.parseInto DataQueryReliablePdu.parseHeap := by
  unfold DataQueryReliablePdu.parseInto DataQueryReliablePdu.parseHeap
  refine .bind (.super SimulationManagementWithReliabilityFamilyPdu.refines (fun _ => rfl) (fun _ _ => rfl)) fun _ => ?_
  refine .bind .read fun _ => ?_
  refine .bind (.set' (fun o => by simp [DataQueryReliablePdu.members, SimulationManagementWithReliabilityFamilyPdu.members, Pdu.members, PduSuperclass.members, attrOf]) (fun o => by simp [DataQueryReliablePdu.members, SimulationManagementWithReliabilityFamilyPdu.members, Pdu.members, PduSuperclass.members, putAttr, Tree.optInt, Tree.intOr])) fun _ => ?_
  refine .bind .read fun _ => ?_
  refine .bind (.set' (fun o => by simp [DataQueryReliablePdu.members, SimulationManagementWithReliabilityFamilyPdu.members, Pdu.members, PduSuperclass.members, attrOf]) (fun o => by simp [DataQueryReliablePdu.members, SimulationManagementWithReliabilityFamilyPdu.members, Pdu.members, PduSuperclass.members, putAttr, Tree.optInt, Tree.intOr])) fun _ => ?_
  refine .bind .read fun _ => ?_
  refine .bind (.set' (fun o => by simp [DataQueryReliablePdu.members, SimulationManagementWithReliabilityFamilyPdu.members, Pdu.members, PduSuperclass.members, attrOf]) (fun o => by simp [DataQueryReliablePdu.members, SimulationManagementWithReliabilityFamilyPdu.members, Pdu.members, PduSuperclass.members, putAttr, Tree.optInt, Tree.intOr])) fun _ => ?_
  refine .bind .read fun _ => ?_
  refine .bind (.set' (fun o => by simp [DataQueryReliablePdu.members, SimulationManagementWithReliabilityFamilyPdu.members, Pdu.members, PduSuperclass.members, attrOf]) (fun o => by simp [DataQueryReliablePdu.members, SimulationManagementWithReliabilityFamilyPdu.members, Pdu.members, PduSuperclass.members, putAttr, Tree.optInt, Tree.intOr])) fun _ => ?_
  refine .bind .read fun _ => ?_
  refine .bind (.set' (fun o => by simp [DataQueryReliablePdu.members, SimulationManagementWithReliabilityFamilyPdu.members, Pdu.members, PduSuperclass.members, attrOf]) (fun o => by simp [DataQueryReliablePdu.members, SimulationManagementWithReliabilityFamilyPdu.members, Pdu.members, PduSuperclass.members, putAttr, Tree.optInt, Tree.intOr])) fun _ => ?_
  refine .bind (.call' DataQueryDatumSpecification.refines (fun o => by simp [DataQueryReliablePdu.members, SimulationManagementWithReliabilityFamilyPdu.members, Pdu.members, PduSuperclass.members, attrOf]) (fun o v => by simp [DataQueryReliablePdu.members, SimulationManagementWithReliabilityFamilyPdu.members, Pdu.members, PduSuperclass.members, putAttr, Tree.optInt, Tree.intOr])) fun _ => ?_
  exact .pure

theorem DataQueryReliablePdu.shows : Shows DataQueryReliablePdu.members DataQueryReliablePdu.serialize DataQueryReliablePdu.serializeHeap := by
  unfold DataQueryReliablePdu.serialize DataQueryReliablePdu.serializeHeap
  refine .bind (.super SimulationManagementWithReliabilityFamilyPdu.shows (fun _ => rfl)) ?_
  refine .bind (.putInt (fun o => by simp [DataQueryReliablePdu.members, SimulationManagementWithReliabilityFamilyPdu.members, Pdu.members, PduSuperclass.members, attrOf])) ?_
  refine .bind (.putInt (fun o => by simp [DataQueryReliablePdu.members, SimulationManagementWithReliabilityFamilyPdu.members, Pdu.members, PduSuperclass.members, attrOf])) ?_
  refine .bind (.putInt (fun o => by simp [DataQueryReliablePdu.members, SimulationManagementWithReliabilityFamilyPdu.members, Pdu.members, PduSuperclass.members, attrOf])) ?_
  refine .bind (.putInt (fun o => by simp [DataQueryReliablePdu.members, SimulationManagementWithReliabilityFamilyPdu.members, Pdu.members, PduSuperclass.members, attrOf])) ?_
  refine .bind (.putInt (fun o => by simp [DataQueryReliablePdu.members, SimulationManagementWithReliabilityFamilyPdu.members, Pdu.members, PduSuperclass.members, attrOf])) ?_
  exact .call DataQueryDatumSpecification.shows (fun o => by simp [DataQueryReliablePdu.members, SimulationManagementWithReliabilityFamilyPdu.members, Pdu.members, PduSuperclass.members, attrOf])

theorem MinefieldStatePdu.inits (p pf : Int) (ex : List (String × Tree)) : Inits (fun self => MinefieldStatePdu.initHeap self)
      (([("protocolVersion", .sc .absent), ("exerciseID", .sc .absent), ("pduType", .sc (.int p)), ("protocolFamily", .sc (.int pf)), ("timestamp", .sc .absent), ("length", .sc .absent)] : List (String × Tree)) ++
      (([("pduStatus", .sc .absent), ("padding", .sc .absent)] : List (String × Tree)) ++
      ([] ++
      (([("minefieldID", .sc .absent), ("minefieldSequence", .sc .absent), ("forceID", .sc .absent), ("minefieldType", .sc .absent), ("minefieldLocation", .sc .absent), ("minefieldOrientation", .sc .absent), ("appearance", .sc .absent), ("protocolMode", .sc .absent), ("perimeterPoints", .sc .absent), ("mineTypes", .sc .absent)] : List (String × Tree)) ++ ex))))
      (MinefieldStatePdu.members { pduType := p, protocolFamily := pf } ++ ex) := by
  unfold MinefieldStatePdu.initHeap
  refine .bind (MinefieldFamilyPdu.inits p pf _) ?_
  refine .bind (.setOr' MinefieldIdentifier.makesNew (by simp [attrOf_putAttr_isSome, attrOf, MinefieldStatePdu.members, MinefieldFamilyPdu.members, Pdu.members, PduSuperclass.members])) ?_
  refine .bind (.set' (by simp [attrOf_putAttr_isSome, attrOf, MinefieldStatePdu.members, MinefieldFamilyPdu.members, Pdu.members, PduSuperclass.members])) ?_
  refine .bind (.set' (by simp [attrOf_putAttr_isSome, attrOf, MinefieldStatePdu.members, MinefieldFamilyPdu.members, Pdu.members, PduSuperclass.members])) ?_
  refine .bind (.setOr' EntityType.makesNew (by simp [attrOf_putAttr_isSome, attrOf, MinefieldStatePdu.members, MinefieldFamilyPdu.members, Pdu.members, PduSuperclass.members])) ?_
  refine .bind (.setOr' WorldCoordinates.makesNew (by simp [attrOf_putAttr_isSome, attrOf, MinefieldStatePdu.members, MinefieldFamilyPdu.members, Pdu.members, PduSuperclass.members])) ?_
  refine .bind (.setOr' EulerAngles.makesNew (by simp [attrOf_putAttr_isSome, attrOf, MinefieldStatePdu.members, MinefieldFamilyPdu.members, Pdu.members, PduSuperclass.members])) ?_
  refine .bind (.set' (by simp [attrOf_putAttr_isSome, attrOf, MinefieldStatePdu.members, MinefieldFamilyPdu.members, Pdu.members, PduSuperclass.members])) ?_
  refine .bind (.set' (by simp [attrOf_putAttr_isSome, attrOf, MinefieldStatePdu.members, MinefieldFamilyPdu.members, Pdu.members, PduSuperclass.members])) ?_
  refine .bind (.setOr' .empty (by simp [attrOf_putAttr_isSome, attrOf, MinefieldStatePdu.members, MinefieldFamilyPdu.members, Pdu.members, PduSuperclass.members])) ?_
  exact .cast (.setOr' .empty (by simp [attrOf_putAttr_isSome, attrOf, MinefieldStatePdu.members, MinefieldFamilyPdu.members, Pdu.members, PduSuperclass.members]))
    (by simp [putAttr, MinefieldStatePdu.members, MinefieldFamilyPdu.members, Pdu.members, PduSuperclass.members, Tree.ints, Tree.objs, Tree.optInt, Tree.optObj, Tree.intOr])

theorem MinefieldStatePdu.makesNew : MakesNew MinefieldStatePdu.newHeap (.obj (MinefieldStatePdu.members MinefieldStatePdu.init)) :=
  .new (.cast (MinefieldStatePdu.inits 37 8 []) (List.append_nil _))

theorem MinefieldStatePdu.refines : Refines MinefieldStatePdu.members MinefieldStatePdu.parseInto MinefieldStatePdu.parseHeap := by
  unfold MinefieldStatePdu.parseInto MinefieldStatePdu.parseHeap
  refine .bind (.super MinefieldFamilyPdu.refines (fun _ => rfl) (fun _ _ => rfl)) fun _ => ?_
  refine .bind (.call' MinefieldIdentifier.refines (fun o => by simp [MinefieldStatePdu.members, MinefieldFamilyPdu.members, Pdu.members, PduSuperclass.members, attrOf]) (fun o v => by simp [MinefieldStatePdu.members, MinefieldFamilyPdu.members, Pdu.members, PduSuperclass.members, putAttr, Tree.optInt, Tree.intOr])) fun _ => ?_
  refine .bind .read fun _ => ?_
  refine .bind (.set' (fun o => by simp [MinefieldStatePdu.members, MinefieldFamilyPdu.members, Pdu.members, PduSuperclass.members, attrOf]) (fun o => by simp [MinefieldStatePdu.members, MinefieldFamilyPdu.members, Pdu.members, PduSuperclass.members, putAttr, Tree.optInt, Tree.intOr])) fun _ => ?_
  refine .bind .read fun _ => ?_
  refine .bind (.set' (fun o => by simp [MinefieldStatePdu.members, MinefieldFamilyPdu.members, Pdu.members, PduSuperclass.members, attrOf]) (fun o => by simp [MinefieldStatePdu.members, MinefieldFamilyPdu.members, Pdu.members, PduSuperclass.members, putAttr, Tree.optInt, Tree.intOr])) fun _ => ?_
  refine .bind .read fun _ => ?_
  refine .bind (.call' EntityType.refines (fun o => by simp [MinefieldStatePdu.members, MinefieldFamilyPdu.members, Pdu.members, PduSuperclass.members, attrOf]) (fun o v => by simp [MinefieldStatePdu.members, MinefieldFamilyPdu.members, Pdu.members, PduSuperclass.members, putAttr, Tree.optInt, Tree.intOr])) fun _ => ?_
  refine .bind .read fun _ => ?_
  refine .bind (.call' WorldCoordinates.refines (fun o => by simp [MinefieldStatePdu.members, MinefieldFamilyPdu.members, Pdu.members, PduSuperclass.members, attrOf]) (fun o v => by simp [MinefieldStatePdu.members, MinefieldFamilyPdu.members, Pdu.members, PduSuperclass.members, putAttr, Tree.optInt, Tree.intOr])) fun _ => ?_
  refine .bind (.call' EulerAngles.refines (fun o => by simp [MinefieldStatePdu.members, MinefieldFamilyPdu.members, Pdu.members, PduSuperclass.members, attrOf]) (fun o v => by simp [MinefieldStatePdu.members, MinefieldFamilyPdu.members, Pdu.members, PduSuperclass.members, putAttr, Tree.optInt, Tree.intOr])) fun _ => ?_
  refine .bind .read fun _ => ?_
  refine .bind (.set' (fun o => by simp [MinefieldStatePdu.members, MinefieldFamilyPdu.members, Pdu.members, PduSuperclass.members, attrOf]) (fun o => by simp [MinefieldStatePdu.members, MinefieldFamilyPdu.members, Pdu.members, PduSuperclass.members, putAttr, Tree.optInt, Tree.intOr])) fun _ => ?_
  refine .bind .read fun _ => ?_
  refine .bind (.set' (fun o => by simp [MinefieldStatePdu.members, MinefieldFamilyPdu.members, Pdu.members, PduSuperclass.members, attrOf]) (fun o => by simp [MinefieldStatePdu.members, MinefieldFamilyPdu.members, Pdu.members, PduSuperclass.members, putAttr, Tree.optInt, Tree.intOr])) fun _ => ?_
  refine .bind (.objs Vector2Float.makesNew Vector2Float.refines (fun o => by simp [MinefieldStatePdu.members, MinefieldFamilyPdu.members, Pdu.members, PduSuperclass.members, attrOf]) (fun o v => by simp [MinefieldStatePdu.members, MinefieldFamilyPdu.members, Pdu.members, PduSuperclass.members, putAttr, Tree.optInt, Tree.intOr])) fun _ => ?_
  refine .bind (.objs EntityType.makesNew EntityType.refines (fun o => by simp [MinefieldStatePdu.members, MinefieldFamilyPdu.members, Pdu.members, PduSuperclass.members, attrOf]) (fun o v => by simp [MinefieldStatePdu.members, MinefieldFamilyPdu.members, Pdu.members, PduSuperclass.members, putAttr, Tree.optInt, Tree.intOr])) fun _ => ?_
  exact .pure

theorem MinefieldStatePdu.shows : Shows MinefieldStatePdu.members MinefieldStatePdu.serialize MinefieldStatePdu.serializeHeap := by
  unfold MinefieldStatePdu.serialize MinefieldStatePdu.serializeHeap
  refine .bind (.super MinefieldFamilyPdu.shows (fun _ => rfl)) ?_
  refine .bind (.call MinefieldIdentifier.shows (fun o => by simp [MinefieldStatePdu.members, MinefieldFamilyPdu.members, Pdu.members, PduSuperclass.members, attrOf])) ?_
  refine .bind (.putInt (fun o => by simp [MinefieldStatePdu.members, MinefieldFamilyPdu.members, Pdu.members, PduSuperclass.members, attrOf])) ?_
  refine .bind (.putInt (fun o => by simp [MinefieldStatePdu.members, MinefieldFamilyPdu.members, Pdu.members, PduSuperclass.members, attrOf])) ?_
  refine .bind (.lenObjs (ts := Vector2Float.members) (fun o => by simp [MinefieldStatePdu.members, MinefieldFamilyPdu.members, Pdu.members, PduSuperclass.members, attrOf])) ?_
  refine .bind (.call EntityType.shows (fun o => by simp [MinefieldStatePdu.members, MinefieldFamilyPdu.members, Pdu.members, PduSuperclass.members, attrOf])) ?_
  refine .bind (.lenObjs (ts := EntityType.members) (fun o => by simp [MinefieldStatePdu.members, MinefieldFamilyPdu.members, Pdu.members, PduSuperclass.members, attrOf])) ?_
  refine .bind (.call WorldCoordinates.shows (fun o => by simp [MinefieldStatePdu.members, MinefieldFamilyPdu.members, Pdu.members, PduSuperclass.members, attrOf])) ?_
  refine .bind (.call EulerAngles.shows (fun o => by simp [MinefieldStatePdu.members, MinefieldFamilyPdu.members, Pdu.members, PduSuperclass.members, attrOf])) ?_
  refine .bind (.putInt (fun o => by simp [MinefieldStatePdu.members, MinefieldFamilyPdu.members, Pdu.members, PduSuperclass.members, attrOf])) ?_
  refine .bind (.putInt (fun o => by simp [MinefieldStatePdu.members, MinefieldFamilyPdu.members, Pdu.members, PduSuperclass.members, attrOf])) ?_
  refine .bind (.eachObj Vector2Float.shows (fun o => by simp [MinefieldStatePdu.members, MinefieldFamilyPdu.members, Pdu.members, PduSuperclass.members, attrOf])) ?_
  exact .eachObj EntityType.shows (fun o => by simp [MinefieldStatePdu.members, MinefieldFamilyPdu.members, Pdu.members, PduSuperclass.members, attrOf])

theorem DataReliablePdu.inits (p pf : Int) (ex : List (String × Tree)) : Inits (fun self => DataReliablePdu.initHeap self)
      (([("protocolVersion", .sc .absent), ("exerciseID", .sc .absent), ("pduType", .sc (.int p)), ("protocolFamily", .sc (.int pf)), ("timestamp", .sc .absent), ("length", .sc .absent)] : List (String × Tree)) ++
      (([("pduStatus", .sc .absent), ("padding", .sc .absent)] : List (String × Tree)) ++
      (([("originatingEntityID", .sc .absent), ("receivingEntityID", .sc .absent)] : List (String × Tree)) ++
      (([("requestID", .sc .absent), ("requiredReliabilityService", .sc .absent), ("pad1", .sc .absent), ("pad2", .sc .absent), ("_datums", .sc .absent)] : List (String × Tree)) ++ ex))))
      (DataReliablePdu.members { pduType := p, protocolFamily := pf } ++ ex) := by
  unfold DataReliablePdu.initHeap
  refine .bind (SimulationManagementWithReliabilityFamilyPdu.inits p pf _) ?_
  refine .bind (.set' (by simp [attrOf_putAttr_isSome, attrOf, DataReliablePdu.members, SimulationManagementWithReliabilityFamilyPdu.members, Pdu.members, PduSuperclass.members])) ?_
  refine .bind (.set' (by simp [attrOf_putAttr_isSome, attrOf, DataReliablePdu.members, SimulationManagementWithReliabilityFamilyPdu.members, Pdu.members, PduSuperclass.members])) ?_
  refine .bind (.set' (by simp [attrOf_putAttr_isSome, attrOf, DataReliablePdu.members, SimulationManagementWithReliabilityFamilyPdu.members, Pdu.members, PduSuperclass.members])) ?_
  refine .bind (.set' (by simp [attrOf_putAttr_isSome, attrOf, DataReliablePdu.members, SimulationManagementWithReliabilityFamilyPdu.members, Pdu.members, PduSuperclass.members])) ?_
  exact .cast (.setNew' DatumSpecification.makesNew' (by simp [attrOf_putAttr_isSome, attrOf, DataReliablePdu.members, SimulationManagementWithReliabilityFamilyPdu.members, Pdu.members, PduSuperclass.members]))
    (by simp [putAttr, DataReliablePdu.members, SimulationManagementWithReliabilityFamilyPdu.members, Pdu.members, PduSuperclass.members, Tree.ints, Tree.objs, Tree.optInt, Tree.optObj, Tree.intOr])

theorem DataReliablePdu.makesNew : MakesNew DataReliablePdu.newHeap (.obj (DataReliablePdu.members DataReliablePdu.init)) :=
  .new (.cast (DataReliablePdu.inits 60 10 []) (List.append_nil _))

theorem DataReliablePdu.refines : Refines DataReliablePdu.members DataReliablePdu.parseInto DataReliablePdu.parseHeap := by
  unfold DataReliablePdu.parseInto DataReliablePdu.parseHeap
  refine .bind (.super SimulationManagementWithReliabilityFamilyPdu.refines (fun _ => rfl) (fun _ _ => rfl)) fun _ => ?_
  refine .bind .read fun _ => ?_
  refine .bind (.set' (fun o => by simp [DataReliablePdu.members, SimulationManagementWithReliabilityFamilyPdu.members, Pdu.members, PduSuperclass.members, attrOf]) (fun o => by simp [DataReliablePdu.members, SimulationManagementWithReliabilityFamilyPdu.members, Pdu.members, PduSuperclass.members, putAttr, Tree.optInt, Tree.intOr])) fun _ => ?_
  refine .bind .read fun _ => ?_
  refine .bind (.set' (fun o => by simp [DataReliablePdu.members, SimulationManagementWithReliabilityFamilyPdu.members, Pdu.members, PduSuperclass.members, attrOf]) (fun o => by simp [DataReliablePdu.members, SimulationManagementWithReliabilityFamilyPdu.members, Pdu.members, PduSuperclass.members, putAttr, Tree.optInt, Tree.intOr])) fun _ => ?_
  refine .bind .read fun _ => ?_
  refine .bind (.set' (fun o => by simp [DataReliablePdu.members, SimulationManagementWithReliabilityFamilyPdu.members, Pdu.members, PduSuperclass.members, attrOf]) (fun o => by simp [DataReliablePdu.members, SimulationManagementWithReliabilityFamilyPdu.members, Pdu.members, PduSuperclass.members, putAttr, Tree.optInt, Tree.intOr])) fun _ => ?_
  refine .bind .read fun _ => ?_
  refine .bind (.set' (fun o => by simp [DataReliablePdu.members, SimulationManagementWithReliabilityFamilyPdu.members, Pdu.members, PduSuperclass.members, attrOf]) (fun o => by simp [DataReliablePdu.members, SimulationManagementWithReliabilityFamilyPdu.members, Pdu.members, PduSuperclass.members, putAttr, Tree.optInt, Tree.intOr])) fun _ => ?_
  refine .bind (.call' DatumSpecification.refines (fun o => by simp [DataReliablePdu.members, SimulationManagementWithReliabilityFamilyPdu.members, Pdu.members, PduSuperclass.members, attrOf]) (fun o v => by simp [DataReliablePdu.members, SimulationManagementWithReliabilityFamilyPdu.members, Pdu.members, PduSuperclass.members, putAttr, Tree.optInt, Tree.intOr])) fun _ => ?_
  exact .pure

theorem DataReliablePdu.shows : Shows DataReliablePdu.members DataReliablePdu.serialize DataReliablePdu.serializeHeap := by
  unfold DataReliablePdu.serialize DataReliablePdu.serializeHeap
  refine .bind (.super SimulationManagementWithReliabilityFamilyPdu.shows (fun _ => rfl)) ?_
  refine .bind (.putInt (fun o => by simp [DataReliablePdu.members, SimulationManagementWithReliabilityFamilyPdu.members, Pdu.members, PduSuperclass.members, attrOf])) ?_
  refine .bind (.putInt (fun o => by simp [DataReliablePdu.members, SimulationManagementWithReliabilityFamilyPdu.members, Pdu.members, PduSuperclass.members, attrOf])) ?_
  refine .bind (.putInt (fun o => by simp [DataReliablePdu.members, SimulationManagementWithReliabilityFamilyPdu.members, Pdu.members, PduSuperclass.members, attrOf])) ?_
  refine .bind (.putInt (fun o => by simp [DataReliablePdu.members, SimulationManagementWithReliabilityFamilyPdu.members, Pdu.members, PduSuperclass.members, attrOf])) ?_
  exact .call DatumSpecification.shows (fun o => by simp [DataReliablePdu.members, SimulationManagementWithReliabilityFamilyPdu.members, Pdu.members, PduSuperclass.members, attrOf])

theorem CommentPdu.inits (p pf : Int) (ex : List (String × Tree)) : Inits (fun self => CommentPdu.initHeap self)
      (([("protocolVersion", .sc .absent), ("exerciseID", .sc .absent), ("pduType", .sc (.int p)), ("protocolFamily", .sc (.int pf)), ("timestamp", .sc .absent), ("length", .sc .absent)] : List (String × Tree)) ++
      (([("pduStatus", .sc .absent), ("padding", .sc .absent)] : List (String × Tree)) ++
      (([("originatingEntityID", .sc .absent), ("receivingEntityID", .sc .absent)] : List (String × Tree)) ++
      (([("_datums", .sc .absent)] : List (String × Tree)) ++ ex))))
      (CommentPdu.members { pduType := p, protocolFamily := pf } ++ ex) := by
  unfold CommentPdu.initHeap
  refine .bind (SimulationManagementFamilyPdu.inits p pf _) ?_
  exact .cast (.setNew' DatumSpecification.makesNew' (by simp [attrOf_putAttr_isSome, attrOf, CommentPdu.members, SimulationManagementFamilyPdu.members, Pdu.members, PduSuperclass.members]))
    (by simp [putAttr, CommentPdu.members, SimulationManagementFamilyPdu.members, Pdu.members, PduSuperclass.members, Tree.ints, Tree.objs, Tree.optInt, Tree.optObj, Tree.intOr])

theorem CommentPdu.makesNew : MakesNew CommentPdu.newHeap (.obj (CommentPdu.members CommentPdu.init)) :=
  .new (.cast (CommentPdu.inits 22 5 []) (List.append_nil _))

theorem CommentPdu.refines : Refines CommentPdu.members CommentPdu.parseInto CommentPdu.parseHeap := by
  unfold CommentPdu.parseInto CommentPdu.parseHeap
  refine .bind (.super SimulationManagementFamilyPdu.refines (fun _ => rfl) (fun _ _ => rfl)) fun _ => ?_
  refine .bind (.call' DatumSpecification.refines (fun o => by simp [CommentPdu.members, SimulationManagementFamilyPdu.members, Pdu.members, PduSuperclass.members, attrOf]) (fun o v => by simp [CommentPdu.members, SimulationManagementFamilyPdu.members, Pdu.members, PduSuperclass.members, putAttr, Tree.optInt, Tree.intOr])) fun _ => ?_
  exact .pure

theorem CommentPdu.shows : Shows CommentPdu.members CommentPdu.serialize CommentPdu.serializeHeap := by
  unfold CommentPdu.serialize CommentPdu.serializeHeap
  refine .bind (.super SimulationManagementFamilyPdu.shows (fun _ => rfl)) ?_
  exact .call DatumSpecification.shows (fun o => by simp [CommentPdu.members, SimulationManagementFamilyPdu.members, Pdu.members, PduSuperclass.members, attrOf])

theorem CommentReliablePdu.inits (p pf : Int) (ex : List (String × Tree)) : Inits (fun self => CommentReliablePdu.initHeap self)
      (([("protocolVersion", .sc .absent), ("exerciseID", .sc .absent), ("pduType", .sc (.int p)), ("protocolFamily", .sc (.int pf)), ("timestamp", .sc .absent), ("length", .sc .absent)] : List (String × Tree)) ++
      (([("pduStatus", .sc .absent), ("padding", .sc .absent)] : List (String × Tree)) ++
      (([("originatingEntityID", .sc .absent), ("receivingEntityID", .sc .absent)] : List (String × Tree)) ++
      (([("_datums", .sc .absent)] : List (String × Tree)) ++ ex))))
      (CommentReliablePdu.members { pduType := p, protocolFamily := pf } ++ ex) := by
  unfold CommentReliablePdu.initHeap
  refine .bind (SimulationManagementWithReliabilityFamilyPdu.inits p pf _) ?_
  exact .cast (.setNew' DatumSpecification.makesNew' (by simp [attrOf_putAttr_isSome, attrOf, CommentReliablePdu.members, SimulationManagementWithReliabilityFamilyPdu.members, Pdu.members, PduSuperclass.members]))
    (by simp [putAttr, CommentReliablePdu.members, SimulationManagementWithReliabilityFamilyPdu.members, Pdu.members, PduSuperclass.members, Tree.ints, Tree.objs, Tree.optInt, Tree.optObj, Tree.intOr])

theorem CommentReliablePdu.makesNew : MakesNew CommentReliablePdu.newHeap (.obj (CommentReliablePdu.members CommentReliablePdu.init)) :=
  .new (.cast (CommentReliablePdu.inits 62 10 []) (List.append_nil _))

theorem CommentReliablePdu.refines : Refines CommentReliablePdu.members CommentReliablePdu.parseInto CommentReliablePdu.parseHeap := by
  unfold CommentReliablePdu.parseInto CommentReliablePdu.parseHeap
  refine .bind (.super SimulationManagementWithReliabilityFamilyPdu.refines (fun _ => rfl) (fun _ _ => rfl)) fun _ => ?_
  refine .bind (.call' DatumSpecification.refines (fun o => by simp [CommentReliablePdu.members, SimulationManagementWithReliabilityFamilyPdu.members, Pdu.members, PduSuperclass.members, attrOf]) (fun o v => by simp [CommentReliablePdu.members, SimulationManagementWithReliabilityFamilyPdu.members, Pdu.members, PduSuperclass.members, putAttr, Tree.optInt, Tree.intOr])) fun _ => ?_
  exact .pure

theorem CommentReliablePdu.shows : Shows CommentReliablePdu.members CommentReliablePdu.serialize CommentReliablePdu.serializeHeap := by
  unfold CommentReliablePdu.serialize CommentReliablePdu.serializeHeap
  refine .bind (.super SimulationManagementWithReliabilityFamilyPdu.shows (fun _ => rfl)) ?_
  exact .call DatumSpecification.shows (fun o => by simp [CommentReliablePdu.members, SimulationManagementWithReliabilityFamilyPdu.members, Pdu.members, PduSuperclass.members, attrOf])

theorem DetonationPdu.inits (p pf : Int) (ex : List (String × Tree)) : Inits (fun self => DetonationPdu.initHeap self)
      (([("protocolVersion", .sc .absent), ("exerciseID", .sc .absent), ("pduType", .sc (.int p)), ("protocolFamily", .sc (.int pf)), ("timestamp", .sc .absent), ("length", .sc .absent)] : List (String × Tree)) ++
      (([("pduStatus", .sc .absent), ("padding", .sc .absent)] : List (String × Tree)) ++
      (([("firingEntityID", .sc .absent), ("targetEntityID", .sc .absent)] : List (String × Tree)) ++
      (([("explodingEntityID", .sc .absent), ("eventID", .sc .absent), ("velocity", .sc .absent), ("location", .sc .absent), ("descriptor", .sc .absent), ("locationInEntityCoordinates", .sc .absent), ("detonationResult", .sc .absent), ("pad", .sc .absent), ("variableParameters", .sc .absent)] : List (String × Tree)) ++ ex))))
      (DetonationPdu.members { pduType := p, protocolFamily := pf } ++ ex) := by
  unfold DetonationPdu.initHeap
  refine .bind (WarfareFamilyPdu.inits p pf _) ?_
  refine .bind (.setOr' EntityIdentifier.makesNew (by simp [attrOf_putAttr_isSome, attrOf, DetonationPdu.members, WarfareFamilyPdu.members, Pdu.members, PduSuperclass.members])) ?_
  refine .bind (.setOr' EventIdentifier.makesNew (by simp [attrOf_putAttr_isSome, attrOf, DetonationPdu.members, WarfareFamilyPdu.members, Pdu.members, PduSuperclass.members])) ?_
  refine .bind (.setOr' Vector3Float.makesNew (by simp [attrOf_putAttr_isSome, attrOf, DetonationPdu.members, WarfareFamilyPdu.members, Pdu.members, PduSuperclass.members])) ?_
  refine .bind (.setOr' WorldCoordinates.makesNew (by simp [attrOf_putAttr_isSome, attrOf, DetonationPdu.members, WarfareFamilyPdu.members, Pdu.members, PduSuperclass.members])) ?_
  refine .bind (.setOr' MunitionDescriptor.makesNew (by simp [attrOf_putAttr_isSome, attrOf, DetonationPdu.members, WarfareFamilyPdu.members, Pdu.members, PduSuperclass.members])) ?_
  refine .bind (.setOr' Vector3Float.makesNew (by simp [attrOf_putAttr_isSome, attrOf, DetonationPdu.members, WarfareFamilyPdu.members, Pdu.members, PduSuperclass.members])) ?_
  refine .bind (.set' (by simp [attrOf_putAttr_isSome, attrOf, DetonationPdu.members, WarfareFamilyPdu.members, Pdu.members, PduSuperclass.members])) ?_
  refine .bind (.set' (by simp [attrOf_putAttr_isSome, attrOf, DetonationPdu.members, WarfareFamilyPdu.members, Pdu.members, PduSuperclass.members])) ?_
  exact .cast (.setOr' .empty (by simp [attrOf_putAttr_isSome, attrOf, DetonationPdu.members, WarfareFamilyPdu.members, Pdu.members, PduSuperclass.members]))
    (by simp [putAttr, DetonationPdu.members, WarfareFamilyPdu.members, Pdu.members, PduSuperclass.members, Tree.ints, Tree.objs, Tree.optInt, Tree.optObj, Tree.intOr])

theorem DetonationPdu.makesNew : MakesNew DetonationPdu.newHeap (.obj (DetonationPdu.members DetonationPdu.init)) :=
  .new (.cast (DetonationPdu.inits 3 2 []) (List.append_nil _))

theorem DetonationPdu.refines : Refines DetonationPdu.members DetonationPdu.parseInto DetonationPdu.parseHeap := by
  unfold DetonationPdu.parseInto DetonationPdu.parseHeap
  refine .bind (.super WarfareFamilyPdu.refines (fun _ => rfl) (fun _ _ => rfl)) fun _ => ?_
  refine .bind (.call' EntityIdentifier.refines (fun o => by simp [DetonationPdu.members, WarfareFamilyPdu.members, Pdu.members, PduSuperclass.members, attrOf]) (fun o v => by simp [DetonationPdu.members, WarfareFamilyPdu.members, Pdu.members, PduSuperclass.members, putAttr, Tree.optInt, Tree.intOr])) fun _ => ?_
  refine .bind (.call' EventIdentifier.refines (fun o => by simp [DetonationPdu.members, WarfareFamilyPdu.members, Pdu.members, PduSuperclass.members, attrOf]) (fun o v => by simp [DetonationPdu.members, WarfareFamilyPdu.members, Pdu.members, PduSuperclass.members, putAttr, Tree.optInt, Tree.intOr])) fun _ => ?_
  refine .bind (.call' Vector3Float.refines (fun o => by simp [DetonationPdu.members, WarfareFamilyPdu.members, Pdu.members, PduSuperclass.members, attrOf]) (fun o v => by simp [DetonationPdu.members, WarfareFamilyPdu.members, Pdu.members, PduSuperclass.members, putAttr, Tree.optInt, Tree.intOr])) fun _ => ?_
  refine .bind (.call' WorldCoordinates.refines (fun o => by simp [DetonationPdu.members, WarfareFamilyPdu.members, Pdu.members, PduSuperclass.members, attrOf]) (fun o v => by simp [DetonationPdu.members, WarfareFamilyPdu.members, Pdu.members, PduSuperclass.members, putAttr, Tree.optInt, Tree.intOr])) fun _ => ?_
  refine .bind (.call' MunitionDescriptor.refines (fun o => by simp [DetonationPdu.members, WarfareFamilyPdu.members, Pdu.members, PduSuperclass.members, attrOf]) (fun o v => by simp [DetonationPdu.members, WarfareFamilyPdu.members, Pdu.members, PduSuperclass.members, putAttr, Tree.optInt, Tree.intOr])) fun _ => ?_
  refine .bind (.call' Vector3Float.refines (fun o => by simp [DetonationPdu.members, WarfareFamilyPdu.members, Pdu.members, PduSuperclass.members, attrOf]) (fun o v => by simp [DetonationPdu.members, WarfareFamilyPdu.members, Pdu.members, PduSuperclass.members, putAttr, Tree.optInt, Tree.intOr])) fun _ => ?_
  refine .bind .read fun _ => ?_
  refine .bind (.set' (fun o => by simp [DetonationPdu.members, WarfareFamilyPdu.members, Pdu.members, PduSuperclass.members, attrOf]) (fun o => by simp [DetonationPdu.members, WarfareFamilyPdu.members, Pdu.members, PduSuperclass.members, putAttr, Tree.optInt, Tree.intOr])) fun _ => ?_
  refine .bind .read fun _ => ?_
  refine .bind .read fun _ => ?_
  refine .bind (.set' (fun o => by simp [DetonationPdu.members, WarfareFamilyPdu.members, Pdu.members, PduSuperclass.members, attrOf]) (fun o => by simp [DetonationPdu.members, WarfareFamilyPdu.members, Pdu.members, PduSuperclass.members, putAttr, Tree.optInt, Tree.intOr])) fun _ => ?_
  refine .bind (.objs VariableParameter.makesNew VariableParameter.refines (fun o => by simp [DetonationPdu.members, WarfareFamilyPdu.members, Pdu.members, PduSuperclass.members, attrOf]) (fun o v => by simp [DetonationPdu.members, WarfareFamilyPdu.members, Pdu.members, PduSuperclass.members, putAttr, Tree.optInt, Tree.intOr])) fun _ => ?_
  exact .pure

theorem DetonationPdu.shows : Shows DetonationPdu.members DetonationPdu.serialize DetonationPdu.serializeHeap := by
  unfold DetonationPdu.serialize DetonationPdu.serializeHeap
  refine .bind (.super WarfareFamilyPdu.shows (fun _ => rfl)) ?_
  refine .bind (.call EntityIdentifier.shows (fun o => by simp [DetonationPdu.members, WarfareFamilyPdu.members, Pdu.members, PduSuperclass.members, attrOf])) ?_
  refine .bind (.call EventIdentifier.shows (fun o => by simp [DetonationPdu.members, WarfareFamilyPdu.members, Pdu.members, PduSuperclass.members, attrOf])) ?_
  refine .bind (.call Vector3Float.shows (fun o => by simp [DetonationPdu.members, WarfareFamilyPdu.members, Pdu.members, PduSuperclass.members, attrOf])) ?_
  refine .bind (.call WorldCoordinates.shows (fun o => by simp [DetonationPdu.members, WarfareFamilyPdu.members, Pdu.members, PduSuperclass.members, attrOf])) ?_
  refine .bind (.call MunitionDescriptor.shows (fun o => by simp [DetonationPdu.members, WarfareFamilyPdu.members, Pdu.members, PduSuperclass.members, attrOf])) ?_
  refine .bind (.call Vector3Float.shows (fun o => by simp [DetonationPdu.members, WarfareFamilyPdu.members, Pdu.members, PduSuperclass.members, attrOf])) ?_
  refine .bind (.putInt (fun o => by simp [DetonationPdu.members, WarfareFamilyPdu.members, Pdu.members, PduSuperclass.members, attrOf])) ?_
  refine .bind (.lenObjs (ts := VariableParameter.members) (fun o => by simp [DetonationPdu.members, WarfareFamilyPdu.members, Pdu.members, PduSuperclass.members, attrOf])) ?_
  refine .bind (.putInt (fun o => by simp [DetonationPdu.members, WarfareFamilyPdu.members, Pdu.members, PduSuperclass.members, attrOf])) ?_
  exact .eachObj VariableParameter.shows (fun o => by simp [DetonationPdu.members, WarfareFamilyPdu.members, Pdu.members, PduSuperclass.members, attrOf])

theorem SetDataPdu.inits (p pf : Int) (ex : List (String × Tree)) : Inits (fun self => SetDataPdu.initHeap self)
      (([("protocolVersion", .sc .absent), ("exerciseID", .sc .absent), ("pduType", .sc (.int p)), ("protocolFamily", .sc (.int pf)), ("timestamp", .sc .absent), ("length", .sc .absent)] : List (String × Tree)) ++
      (([("pduStatus", .sc .absent), ("padding", .sc .absent)] : List (String × Tree)) ++
      (([("originatingEntityID", .sc .absent), ("receivingEntityID", .sc .absent)] : List (String × Tree)) ++
      (([("requestID", .sc .absent), ("padding1", .sc .absent), ("_datums", .sc .absent)] : List (String × Tree)) ++ ex))))
      (SetDataPdu.members { pduType := p, protocolFamily := pf } ++ ex) := by
  unfold SetDataPdu.initHeap
  refine .bind (SimulationManagementFamilyPdu.inits p pf _) ?_
  refine .bind (.set' (by simp [attrOf_putAttr_isSome, attrOf, SetDataPdu.members, SimulationManagementFamilyPdu.members, Pdu.members, PduSuperclass.members])) ?_
  refine .bind (.set' (by simp [attrOf_putAttr_isSome, attrOf, SetDataPdu.members, SimulationManagementFamilyPdu.members, Pdu.members, PduSuperclass.members])) ?_
  exact .cast (.setNew' DatumSpecification.makesNew' (by simp [attrOf_putAttr_isSome, attrOf, SetDataPdu.members, SimulationManagementFamilyPdu.members, Pdu.members, PduSuperclass.members]))
    (by simp [putAttr, SetDataPdu.members, SimulationManagementFamilyPdu.members, Pdu.members, PduSuperclass.members, Tree.ints, Tree.objs, Tree.optInt, Tree.optObj, Tree.intOr])

theorem SetDataPdu.makesNew : MakesNew SetDataPdu.newHeap (.obj (SetDataPdu.members SetDataPdu.init)) :=
  .new (.cast (SetDataPdu.inits 19 5 []) (List.append_nil _))

theorem SetDataPdu.refines : Refines SetDataPdu.members SetDataPdu.parseInto SetDataPdu.parseHeap := by
  unfold SetDataPdu.parseInto SetDataPdu.parseHeap
  refine .bind (.super SimulationManagementFamilyPdu.refines (fun _ => rfl) (fun _ _ => rfl)) fun _ => ?_
  refine .bind .read fun _ => ?_
  refine .bind (.set' (fun o => by simp [SetDataPdu.members, SimulationManagementFamilyPdu.members, Pdu.members, PduSuperclass.members, attrOf]) (fun o => by simp [SetDataPdu.members, SimulationManagementFamilyPdu.members, Pdu.members, PduSuperclass.members, putAttr, Tree.optInt, Tree.intOr])) fun _ => ?_
  refine .bind .read fun _ => ?_
  refine .bind (.set' (fun o => by simp [SetDataPdu.members, SimulationManagementFamilyPdu.members, Pdu.members, PduSuperclass.members, attrOf]) (fun o => by simp [SetDataPdu.members, SimulationManagementFamilyPdu.members, Pdu.members, PduSuperclass.members, putAttr, Tree.optInt, Tree.intOr])) fun _ => ?_
  refine .bind (.call' DatumSpecification.refines (fun o => by simp [SetDataPdu.members, SimulationManagementFamilyPdu.members, Pdu.members, PduSuperclass.members, attrOf]) (fun o v => by simp [SetDataPdu.members, SimulationManagementFamilyPdu.members, Pdu.members, PduSuperclass.members, putAttr, Tree.optInt, Tree.intOr])) fun _ => ?_
  exact .pure

theorem SetDataPdu.shows : Shows SetDataPdu.members SetDataPdu.serialize SetDataPdu.serializeHeap := by
  unfold SetDataPdu.serialize SetDataPdu.serializeHeap
  refine .bind (.super SimulationManagementFamilyPdu.shows (fun _ => rfl)) ?_
  refine .bind (.putInt (fun o => by simp [SetDataPdu.members, SimulationManagementFamilyPdu.members, Pdu.members, PduSuperclass.members, attrOf])) ?_
  refine .bind (.putInt (fun o => by simp [SetDataPdu.members, SimulationManagementFamilyPdu.members, Pdu.members, PduSuperclass.members, attrOf])) ?_
  exact .call DatumSpecification.shows (fun o => by simp [SetDataPdu.members, SimulationManagementFamilyPdu.members, Pdu.members, PduSuperclass.members, attrOf])

theorem RecordQueryReliablePdu.inits (p pf : Int) (ex : List (String × Tree)) : Inits (fun self => RecordQueryReliablePdu.initHeap self)
      (([("protocolVersion", .sc .absent), ("exerciseID", .sc .absent), ("pduType", .sc (.int p)), ("protocolFamily", .sc (.int pf)), ("timestamp", .sc .absent), ("length", .sc .absent)] : List (String × Tree)) ++
      (([("pduStatus", .sc .absent), ("padding", .sc .absent)] : List (String × Tree)) ++
      (([("originatingEntityID", .sc .absent), ("receivingEntityID", .sc .absent)] : List (String × Tree)) ++
      (([("requestID", .sc .absent), ("requiredReliabilityService", .sc .absent), ("pad1", .sc .absent), ("pad2", .sc .absent), ("eventType", .sc .absent), ("time", .sc .absent), ("recordIDs", .sc .absent)] : List (String × Tree)) ++ ex))))
      (RecordQueryReliablePdu.members { pduType := p, protocolFamily := pf } ++ ex) := by
  unfold RecordQueryReliablePdu.initHeap
  refine .bind (SimulationManagementWithReliabilityFamilyPdu.inits p pf _) ?_
  refine .bind (.set' (by simp [attrOf_putAttr_isSome, attrOf, RecordQueryReliablePdu.members, SimulationManagementWithReliabilityFamilyPdu.members, Pdu.members, PduSuperclass.members])) ?_
  refine .bind (.set' (by simp [attrOf_putAttr_isSome, attrOf, RecordQueryReliablePdu.members, SimulationManagementWithReliabilityFamilyPdu.members, Pdu.members, PduSuperclass.members])) ?_
  refine .bind (.set' (by simp [attrOf_putAttr_isSome, attrOf, RecordQueryReliablePdu.members, SimulationManagementWithReliabilityFamilyPdu.members, Pdu.members, PduSuperclass.members])) ?_
  refine .bind (.set' (by simp [attrOf_putAttr_isSome, attrOf, RecordQueryReliablePdu.members, SimulationManagementWithReliabilityFamilyPdu.members, Pdu.members, PduSuperclass.members])) ?_
  refine .bind (.set' (by simp [attrOf_putAttr_isSome, attrOf, RecordQueryReliablePdu.members, SimulationManagementWithReliabilityFamilyPdu.members, Pdu.members, PduSuperclass.members])) ?_
  refine .bind (.set' (by simp [attrOf_putAttr_isSome, attrOf, RecordQueryReliablePdu.members, SimulationManagementWithReliabilityFamilyPdu.members, Pdu.members, PduSuperclass.members])) ?_
  exact .cast (.setOr' .empty (by simp [attrOf_putAttr_isSome, attrOf, RecordQueryReliablePdu.members, SimulationManagementWithReliabilityFamilyPdu.members, Pdu.members, PduSuperclass.members]))
    (by simp [putAttr, RecordQueryReliablePdu.members, SimulationManagementWithReliabilityFamilyPdu.members, Pdu.members, PduSuperclass.members, Tree.ints, Tree.objs, Tree.optInt, Tree.optObj, Tree.intOr])

theorem RecordQueryReliablePdu.makesNew : MakesNew RecordQueryReliablePdu.newHeap (.obj (RecordQueryReliablePdu.members RecordQueryReliablePdu.init)) :=
  .new (.cast (RecordQueryReliablePdu.inits 63 10 []) (List.append_nil _))

theorem RecordQueryReliablePdu.refines : Refines RecordQueryReliablePdu.members RecordQueryReliablePdu.parseInto RecordQueryReliablePdu.parseHeap := by
  unfold RecordQueryReliablePdu.parseInto RecordQueryReliablePdu.parseHeap
  refine .bind (.super SimulationManagementWithReliabilityFamilyPdu.refines (fun _ => rfl) (fun _ _ => rfl)) fun _ => ?_
  refine .bind .read fun _ => ?_
  refine .bind (.set' (fun o => by simp [RecordQueryReliablePdu.members, SimulationManagementWithReliabilityFamilyPdu.members, Pdu.members, PduSuperclass.members, attrOf]) (fun o => by simp [RecordQueryReliablePdu.members, SimulationManagementWithReliabilityFamilyPdu.members, Pdu.members, PduSuperclass.members, putAttr, Tree.optInt, Tree.intOr])) fun _ => ?_
  refine .bind .read fun _ => ?_
  refine .bind (.set' (fun o => by simp [RecordQueryReliablePdu.members, SimulationManagementWithReliabilityFamilyPdu.members, Pdu.members, PduSuperclass.members, attrOf]) (fun o => by simp [RecordQueryReliablePdu.members, SimulationManagementWithReliabilityFamilyPdu.members, Pdu.members, PduSuperclass.members, putAttr, Tree.optInt, Tree.intOr])) fun _ => ?_
  refine .bind .read fun _ => ?_
  refine .bind (.set' (fun o => by simp [RecordQueryReliablePdu.members, SimulationManagementWithReliabilityFamilyPdu.members, Pdu.members, PduSuperclass.members, attrOf]) (fun o => by simp [RecordQueryReliablePdu.members, SimulationManagementWithReliabilityFamilyPdu.members, Pdu.members, PduSuperclass.members, putAttr, Tree.optInt, Tree.intOr])) fun _ => ?_
  refine .bind .read fun _ => ?_
  refine .bind (.set' (fun o => by simp [RecordQueryReliablePdu.members, SimulationManagementWithReliabilityFamilyPdu.members, Pdu.members, PduSuperclass.members, attrOf]) (fun o => by simp [RecordQueryReliablePdu.members, SimulationManagementWithReliabilityFamilyPdu.members, Pdu.members, PduSuperclass.members, putAttr, Tree.optInt, Tree.intOr])) fun _ => ?_
  refine .bind .read fun _ => ?_
  refine .bind (.set' (fun o => by simp [RecordQueryReliablePdu.members, SimulationManagementWithReliabilityFamilyPdu.members, Pdu.members, PduSuperclass.members, attrOf]) (fun o => by simp [RecordQueryReliablePdu.members, SimulationManagementWithReliabilityFamilyPdu.members, Pdu.members, PduSuperclass.members, putAttr, Tree.optInt, Tree.intOr])) fun _ => ?_
  refine .bind .read fun _ => ?_
  refine .bind (.set' (fun o => by simp [RecordQueryReliablePdu.members, SimulationManagementWithReliabilityFamilyPdu.members, Pdu.members, PduSuperclass.members, attrOf]) (fun o => by simp [RecordQueryReliablePdu.members, SimulationManagementWithReliabilityFamilyPdu.members, Pdu.members, PduSuperclass.members, putAttr, Tree.optInt, Tree.intOr])) fun _ => ?_
  refine .bind .read fun _ => ?_
  refine .bind .raises fun _ => ?_
  exact .pure

theorem RecordQueryReliablePdu.shows : Shows RecordQueryReliablePdu.members RecordQueryReliablePdu.serialize RecordQueryReliablePdu.serializeHeap := by
  unfold RecordQueryReliablePdu.serialize RecordQueryReliablePdu.serializeHeap
  refine .bind (.super SimulationManagementWithReliabilityFamilyPdu.shows (fun _ => rfl)) ?_
  refine .bind (.putInt (fun o => by simp [RecordQueryReliablePdu.members, SimulationManagementWithReliabilityFamilyPdu.members, Pdu.members, PduSuperclass.members, attrOf])) ?_
  refine .bind (.putInt (fun o => by simp [RecordQueryReliablePdu.members, SimulationManagementWithReliabilityFamilyPdu.members, Pdu.members, PduSuperclass.members, attrOf])) ?_
  refine .bind (.putInt (fun o => by simp [RecordQueryReliablePdu.members, SimulationManagementWithReliabilityFamilyPdu.members, Pdu.members, PduSuperclass.members, attrOf])) ?_
  refine .bind (.putInt (fun o => by simp [RecordQueryReliablePdu.members, SimulationManagementWithReliabilityFamilyPdu.members, Pdu.members, PduSuperclass.members, attrOf])) ?_
  refine .bind (.putInt (fun o => by simp [RecordQueryReliablePdu.members, SimulationManagementWithReliabilityFamilyPdu.members, Pdu.members, PduSuperclass.members, attrOf])) ?_
  refine .bind (.putInt (fun o => by simp [RecordQueryReliablePdu.members, SimulationManagementWithReliabilityFamilyPdu.members, Pdu.members, PduSuperclass.members, attrOf])) ?_
  refine .bind (.lenInts (fun o => by simp [RecordQueryReliablePdu.members, SimulationManagementWithReliabilityFamilyPdu.members, Pdu.members, PduSuperclass.members, attrOf])) ?_
  exact .eachRaises (fun o => by simp [RecordQueryReliablePdu.members, SimulationManagementWithReliabilityFamilyPdu.members, Pdu.members, PduSuperclass.members, attrOf])

theorem ActionResponsePdu.inits (p pf : Int) (ex : List (String × Tree)) : Inits (fun self => ActionResponsePdu.initHeap self)
      (([("protocolVersion", .sc .absent), ("exerciseID", .sc .absent), ("pduType", .sc (.int p)), ("protocolFamily", .sc (.int pf)), ("timestamp", .sc .absent), ("length", .sc .absent)] : List (String × Tree)) ++
      (([("pduStatus", .sc .absent), ("padding", .sc .absent)] : List (String × Tree)) ++
      (([("originatingEntityID", .sc .absent), ("receivingEntityID", .sc .absent)] : List (String × Tree)) ++
      (([("requestID", .sc .absent), ("requestStatus", .sc .absent), ("_datums", .sc .absent)] : List (String × Tree)) ++ ex))))
      (ActionResponsePdu.members { pduType := p, protocolFamily := pf } ++ ex) := by
  unfold ActionResponsePdu.initHeap
  refine .bind (SimulationManagementFamilyPdu.inits p pf _) ?_
  refine .bind (.set' (by simp [attrOf_putAttr_isSome, attrOf, ActionResponsePdu.members, SimulationManagementFamilyPdu.members, Pdu.members, PduSuperclass.members])) ?_
  refine .bind (.set' (by simp [attrOf_putAttr_isSome, attrOf, ActionResponsePdu.members, SimulationManagementFamilyPdu.members, Pdu.members, PduSuperclass.members])) ?_
  exact .cast (.setNew' DatumSpecification.makesNew' (by simp [attrOf_putAttr_isSome, attrOf, ActionResponsePdu.members, SimulationManagementFamilyPdu.members, Pdu.members, PduSuperclass.members]))
    (by simp [putAttr, ActionResponsePdu.members, SimulationManagementFamilyPdu.members, Pdu.members, PduSuperclass.members, Tree.ints, Tree.objs, Tree.optInt, Tree.optObj, Tree.intOr])

theorem ActionResponsePdu.makesNew : MakesNew ActionResponsePdu.newHeap (.obj (ActionResponsePdu.members ActionResponsePdu.init)) :=
  .new (.cast (ActionResponsePdu.inits 17 5 []) (List.append_nil _))

theorem ActionResponsePdu.refines : Refines ActionResponsePdu.members ActionResponsePdu.parseInto ActionResponsePdu.parseHeap := by
  unfold ActionResponsePdu.parseInto ActionResponsePdu.parseHeap
  refine .bind (.super SimulationManagementFamilyPdu.refines (fun _ => rfl) (fun _ _ => rfl)) fun _ => ?_
  refine .bind .read fun _ => ?_
  refine .bind (.set' (fun o => by simp [ActionResponsePdu.members, SimulationManagementFamilyPdu.members, Pdu.members, PduSuperclass.members, attrOf]) (fun o => by simp [ActionResponsePdu.members, SimulationManagementFamilyPdu.members, Pdu.members, PduSuperclass.members, putAttr, Tree.optInt, Tree.intOr])) fun _ => ?_
  refine .bind .read fun _ => ?_
  refine .bind (.set' (fun o => by simp [ActionResponsePdu.members, SimulationManagementFamilyPdu.members, Pdu.members, PduSuperclass.members, attrOf]) (fun o => by simp [ActionResponsePdu.members, SimulationManagementFamilyPdu.members, Pdu.members, PduSuperclass.members, putAttr, Tree.optInt, Tree.intOr])) fun _ => ?_
  refine .bind (.call' DatumSpecification.refines (fun o => by simp [ActionResponsePdu.members, SimulationManagementFamilyPdu.members, Pdu.members, PduSuperclass.members, attrOf]) (fun o v => by simp [ActionResponsePdu.members, SimulationManagementFamilyPdu.members, Pdu.members, PduSuperclass.members, putAttr, Tree.optInt, Tree.intOr])) fun _ => ?_
  exact .pure

theorem ActionResponsePdu.shows : Shows ActionResponsePdu.members ActionResponsePdu.serialize ActionResponsePdu.serializeHeap := by
  unfold ActionResponsePdu.serialize ActionResponsePdu.serializeHeap
  refine .bind (.super SimulationManagementFamilyPdu.shows (fun _ => rfl)) ?_
  refine .bind (.putInt (fun o => by simp [ActionResponsePdu.members, SimulationManagementFamilyPdu.members, Pdu.members, PduSuperclass.members, attrOf])) ?_
  refine .bind (.putInt (fun o => by simp [ActionResponsePdu.members, SimulationManagementFamilyPdu.members, Pdu.members, PduSuperclass.members, attrOf])) ?_
  exact .call DatumSpecification.shows (fun o => by simp [ActionResponsePdu.members, SimulationManagementFamilyPdu.members, Pdu.members, PduSuperclass.members, attrOf])

theorem FirePdu.inits (p pf : Int) (ex : List (String × Tree)) : Inits (fun self => FirePdu.initHeap self)
      (([("protocolVersion", .sc .absent), ("exerciseID", .sc .absent), ("pduType", .sc (.int p)), ("protocolFamily", .sc (.int pf)), ("timestamp", .sc .absent), ("length", .sc .absent)] : List (String × Tree)) ++
      (([("pduStatus", .sc .absent), ("padding", .sc .absent)] : List (String × Tree)) ++
      (([("firingEntityID", .sc .absent), ("targetEntityID", .sc .absent)] : List (String × Tree)) ++
      (([("munitionExpendableID", .sc .absent), ("eventID", .sc .absent), ("fireMissionIndex", .sc .absent), ("location", .sc .absent), ("descriptor", .sc .absent), ("velocity", .sc .absent), ("range", .sc .absent)] : List (String × Tree)) ++ ex))))
      (FirePdu.members { pduType := p, protocolFamily := pf } ++ ex) := by
  unfold FirePdu.initHeap
  refine .bind (WarfareFamilyPdu.inits p pf _) ?_
  refine .bind (.setOr' EntityIdentifier.makesNew (by simp [attrOf_putAttr_isSome, attrOf, FirePdu.members, WarfareFamilyPdu.members, Pdu.members, PduSuperclass.members])) ?_
  refine .bind (.setOr' EventIdentifier.makesNew (by simp [attrOf_putAttr_isSome, attrOf, FirePdu.members, WarfareFamilyPdu.members, Pdu.members, PduSuperclass.members])) ?_
  refine .bind (.set' (by simp [attrOf_putAttr_isSome, attrOf, FirePdu.members, WarfareFamilyPdu.members, Pdu.members, PduSuperclass.members])) ?_
  refine .bind (.setOr' WorldCoordinates.makesNew (by simp [attrOf_putAttr_isSome, attrOf, FirePdu.members, WarfareFamilyPdu.members, Pdu.members, PduSuperclass.members])) ?_
  refine .bind (.setOr' MunitionDescriptor.makesNew (by simp [attrOf_putAttr_isSome, attrOf, FirePdu.members, WarfareFamilyPdu.members, Pdu.members, PduSuperclass.members])) ?_
  refine .bind (.setOr' Vector3Float.makesNew (by simp [attrOf_putAttr_isSome, attrOf, FirePdu.members, WarfareFamilyPdu.members, Pdu.members, PduSuperclass.members])) ?_
  exact .cast (.set' (by simp [attrOf_putAttr_isSome, attrOf, FirePdu.members, WarfareFamilyPdu.members, Pdu.members, PduSuperclass.members]))
    (by simp [putAttr, FirePdu.members, WarfareFamilyPdu.members, Pdu.members, PduSuperclass.members, Tree.ints, Tree.objs, Tree.optInt, Tree.optObj, Tree.intOr])

theorem FirePdu.makesNew : MakesNew FirePdu.newHeap (.obj (FirePdu.members FirePdu.init)) :=
  .new (.cast (FirePdu.inits 2 2 []) (List.append_nil _))

theorem FirePdu.refines : Refines FirePdu.members FirePdu.parseInto FirePdu.parseHeap := by
  unfold FirePdu.parseInto FirePdu.parseHeap
  refine .bind (.super WarfareFamilyPdu.refines (fun _ => rfl) (fun _ _ => rfl)) fun _ => ?_
  refine .bind (.call' EntityIdentifier.refines (fun o => by simp [FirePdu.members, WarfareFamilyPdu.members, Pdu.members, PduSuperclass.members, attrOf]) (fun o v => by simp [FirePdu.members, WarfareFamilyPdu.members, Pdu.members, PduSuperclass.members, putAttr, Tree.optInt, Tree.intOr])) fun _ => ?_
  refine .bind (.call' EventIdentifier.refines (fun o => by simp [FirePdu.members, WarfareFamilyPdu.members, Pdu.members, PduSuperclass.members, attrOf]) (fun o v => by simp [FirePdu.members, WarfareFamilyPdu.members, Pdu.members, PduSuperclass.members, putAttr, Tree.optInt, Tree.intOr])) fun _ => ?_
  refine .bind .read fun _ => ?_
  refine .bind (.set' (fun o => by simp [FirePdu.members, WarfareFamilyPdu.members, Pdu.members, PduSuperclass.members, attrOf]) (fun o => by simp [FirePdu.members, WarfareFamilyPdu.members, Pdu.members, PduSuperclass.members, putAttr, Tree.optInt, Tree.intOr])) fun _ => ?_
  refine .bind (.call' WorldCoordinates.refines (fun o => by simp [FirePdu.members, WarfareFamilyPdu.members, Pdu.members, PduSuperclass.members, attrOf]) (fun o v => by simp [FirePdu.members, WarfareFamilyPdu.members, Pdu.members, PduSuperclass.members, putAttr, Tree.optInt, Tree.intOr])) fun _ => ?_
  refine .bind (.call' MunitionDescriptor.refines (fun o => by simp [FirePdu.members, WarfareFamilyPdu.members, Pdu.members, PduSuperclass.members, attrOf]) (fun o v => by simp [FirePdu.members, WarfareFamilyPdu.members, Pdu.members, PduSuperclass.members, putAttr, Tree.optInt, Tree.intOr])) fun _ => ?_
  refine .bind (.call' Vector3Float.refines (fun o => by simp [FirePdu.members, WarfareFamilyPdu.members, Pdu.members, PduSuperclass.members, attrOf]) (fun o v => by simp [FirePdu.members, WarfareFamilyPdu.members, Pdu.members, PduSuperclass.members, putAttr, Tree.optInt, Tree.intOr])) fun _ => ?_
  refine .bind .read fun _ => ?_
  refine .bind (.set' (fun o => by simp [FirePdu.members, WarfareFamilyPdu.members, Pdu.members, PduSuperclass.members, attrOf]) (fun o => by simp [FirePdu.members, WarfareFamilyPdu.members, Pdu.members, PduSuperclass.members, putAttr, Tree.optInt, Tree.intOr])) fun _ => ?_
  exact .pure

theorem FirePdu.shows : Shows FirePdu.members FirePdu.serialize FirePdu.serializeHeap := by
  unfold FirePdu.serialize FirePdu.serializeHeap
  refine .bind (.super WarfareFamilyPdu.shows (fun _ => rfl)) ?_
  refine .bind (.call EntityIdentifier.shows (fun o => by simp [FirePdu.members, WarfareFamilyPdu.members, Pdu.members, PduSuperclass.members, attrOf])) ?_
  refine .bind (.call EventIdentifier.shows (fun o => by simp [FirePdu.members, WarfareFamilyPdu.members, Pdu.members, PduSuperclass.members, attrOf])) ?_
  refine .bind (.putInt (fun o => by simp [FirePdu.members, WarfareFamilyPdu.members, Pdu.members, PduSuperclass.members, attrOf])) ?_
  refine .bind (.call WorldCoordinates.shows (fun o => by simp [FirePdu.members, WarfareFamilyPdu.members, Pdu.members, PduSuperclass.members, attrOf])) ?_
  refine .bind (.call MunitionDescriptor.shows (fun o => by simp [FirePdu.members, WarfareFamilyPdu.members, Pdu.members, PduSuperclass.members, attrOf])) ?_
  refine .bind (.call Vector3Float.shows (fun o => by simp [FirePdu.members, WarfareFamilyPdu.members, Pdu.members, PduSuperclass.members, attrOf])) ?_
  exact .putFloat (fun o => by simp [FirePdu.members, WarfareFamilyPdu.members, Pdu.members, PduSuperclass.members, attrOf])

theorem ReceiverPdu.inits (p pf : Int) (ex : List (String × Tree)) : Inits (fun self => ReceiverPdu.initHeap self)
      (([("protocolVersion", .sc .absent), ("exerciseID", .sc .absent), ("pduType", .sc (.int p)), ("protocolFamily", .sc (.int pf)), ("timestamp", .sc .absent), ("length", .sc .absent)] : List (String × Tree)) ++
      (([("pduStatus", .sc .absent), ("padding", .sc .absent)] : List (String × Tree)) ++
      ([] ++
      (([("receiverState", .sc .absent), ("padding1", .sc .absent), ("receivedPower", .sc .absent), ("transmitterEntityID", .sc .absent), ("transmitterRadioId", .sc .absent)] : List (String × Tree)) ++ ex))))
      (ReceiverPdu.members { pduType := p, protocolFamily := pf } ++ ex) := by
  unfold ReceiverPdu.initHeap
  refine .bind (RadioCommunicationsFamilyPdu.inits p pf _) ?_
  refine .bind (.set' (by simp [attrOf_putAttr_isSome, attrOf, ReceiverPdu.members, RadioCommunicationsFamilyPdu.members, Pdu.members, PduSuperclass.members])) ?_
  refine .bind (.set' (by simp [attrOf_putAttr_isSome, attrOf, ReceiverPdu.members, RadioCommunicationsFamilyPdu.members, Pdu.members, PduSuperclass.members])) ?_
  refine .bind (.set' (by simp [attrOf_putAttr_isSome, attrOf, ReceiverPdu.members, RadioCommunicationsFamilyPdu.members, Pdu.members, PduSuperclass.members])) ?_
  refine .bind (.setOr' EntityIdentifier.makesNew (by simp [attrOf_putAttr_isSome, attrOf, ReceiverPdu.members, RadioCommunicationsFamilyPdu.members, Pdu.members, PduSuperclass.members])) ?_
  exact .cast (.set' (by simp [attrOf_putAttr_isSome, attrOf, ReceiverPdu.members, RadioCommunicationsFamilyPdu.members, Pdu.members, PduSuperclass.members]))
    (by simp [putAttr, ReceiverPdu.members, RadioCommunicationsFamilyPdu.members, Pdu.members, PduSuperclass.members, Tree.ints, Tree.objs, Tree.optInt, Tree.optObj, Tree.intOr])

theorem ReceiverPdu.makesNew : MakesNew ReceiverPdu.newHeap (.obj (ReceiverPdu.members ReceiverPdu.init)) :=
  .new (.cast (ReceiverPdu.inits 27 4 []) (List.append_nil _))

theorem ReceiverPdu.refines : Refines ReceiverPdu.members ReceiverPdu.parseInto ReceiverPdu.parseHeap := by
  unfold ReceiverPdu.parseInto ReceiverPdu.parseHeap
  refine .bind (.super RadioCommunicationsFamilyPdu.refines (fun _ => rfl) (fun _ _ => rfl)) fun _ => ?_
  refine .bind .read fun _ => ?_
  refine .bind (.set' (fun o => by simp [ReceiverPdu.members, RadioCommunicationsFamilyPdu.members, Pdu.members, PduSuperclass.members, attrOf]) (fun o => by simp [ReceiverPdu.members, RadioCommunicationsFamilyPdu.members, Pdu.members, PduSuperclass.members, putAttr, Tree.optInt, Tree.intOr])) fun _ => ?_
  refine .bind .read fun _ => ?_
  refine .bind (.set' (fun o => by simp [ReceiverPdu.members, RadioCommunicationsFamilyPdu.members, Pdu.members, PduSuperclass.members, attrOf]) (fun o => by simp [ReceiverPdu.members, RadioCommunicationsFamilyPdu.members, Pdu.members, PduSuperclass.members, putAttr, Tree.optInt, Tree.intOr])) fun _ => ?_
  refine .bind .read fun _ => ?_
  refine .bind (.set' (fun o => by simp [ReceiverPdu.members, RadioCommunicationsFamilyPdu.members, Pdu.members, PduSuperclass.members, attrOf]) (fun o => by simp [ReceiverPdu.members, RadioCommunicationsFamilyPdu.members, Pdu.members, PduSuperclass.members, putAttr, Tree.optInt, Tree.intOr])) fun _ => ?_
  refine .bind (.call' EntityIdentifier.refines (fun o => by simp [ReceiverPdu.members, RadioCommunicationsFamilyPdu.members, Pdu.members, PduSuperclass.members, attrOf]) (fun o v => by simp [ReceiverPdu.members, RadioCommunicationsFamilyPdu.members, Pdu.members, PduSuperclass.members, putAttr, Tree.optInt, Tree.intOr])) fun _ => ?_
  refine .bind .read fun _ => ?_
  refine .bind (.set' (fun o => by simp [ReceiverPdu.members, RadioCommunicationsFamilyPdu.members, Pdu.members, PduSuperclass.members, attrOf]) (fun o => by simp [ReceiverPdu.members, RadioCommunicationsFamilyPdu.members, Pdu.members, PduSuperclass.members, putAttr, Tree.optInt, Tree.intOr])) fun _ => ?_
  exact .pure

theorem ReceiverPdu.shows : Shows ReceiverPdu.members ReceiverPdu.serialize ReceiverPdu.serializeHeap := by
  unfold ReceiverPdu.serialize ReceiverPdu.serializeHeap
  refine .bind (.super RadioCommunicationsFamilyPdu.shows (fun _ => rfl)) ?_
  refine .bind (.putInt (fun o => by simp [ReceiverPdu.members, RadioCommunicationsFamilyPdu.members, Pdu.members, PduSuperclass.members, attrOf])) ?_
  refine .bind (.putInt (fun o => by simp [ReceiverPdu.members, RadioCommunicationsFamilyPdu.members, Pdu.members, PduSuperclass.members, attrOf])) ?_
  refine .bind (.putFloat (fun o => by simp [ReceiverPdu.members, RadioCommunicationsFamilyPdu.members, Pdu.members, PduSuperclass.members, attrOf])) ?_
  refine .bind (.call EntityIdentifier.shows (fun o => by simp [ReceiverPdu.members, RadioCommunicationsFamilyPdu.members, Pdu.members, PduSuperclass.members, attrOf])) ?_
  exact .putInt (fun o => by simp [ReceiverPdu.members, RadioCommunicationsFamilyPdu.members, Pdu.members, PduSuperclass.members, attrOf])

end Dis
