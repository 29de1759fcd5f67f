import Verif.Proof.HeapClasses4
import Verif.Model.Heap5
import Verif.Spec.HeapFields
import Verif.Model.InPlace4

/-!
# Methods on a memory of objects, part 5

Generated by `tools/genheap.py`.
-/

set_option linter.unusedVariables false
set_option linter.unusedSimpArgs false

namespace Dis

theorem UaPdu.inits (p pf : Int) (ex : List (String × Tree)) : Inits (fun self => UaPdu.initHeap self)
      (([("protocolVersion", .sc .absent), ("exerciseID", .sc .absent), ("pduType", .sc (.int p)), ("protocolFamily", .sc (.int pf)), ("timestamp", .sc .absent), ("length", .sc .absent)] : List (String × Tree)) ++
      (([("pduStatus", .sc .absent), ("padding", .sc .absent)] : List (String × Tree)) ++
      ([] ++
      (([("emittingEntityID", .sc .absent), ("eventID", .sc .absent), ("stateChangeIndicator", .sc .absent), ("pad", .sc .absent), ("passiveParameterIndex", .sc .absent), ("propulsionPlantConfiguration", .sc .absent), ("shaftRPMs", .sc .absent), ("apaData", .sc .absent), ("emitterSystems", .sc .absent)] : List (String × Tree)) ++ ex))))
      (UaPdu.members { pduType := p, protocolFamily := pf } ++ ex) := by
  unfold UaPdu.initHeap
  refine .bind (DistributedEmissionsFamilyPdu.inits p pf _) ?_
  refine .bind (.setOr' EntityIdentifier.makesNew (by simp [attrOf_putAttr_isSome, attrOf, UaPdu.members, DistributedEmissionsFamilyPdu.members, Pdu.members, PduSuperclass.members])) ?_
  refine .bind (.setOr' EventIdentifier.makesNew (by simp [attrOf_putAttr_isSome, attrOf, UaPdu.members, DistributedEmissionsFamilyPdu.members, Pdu.members, PduSuperclass.members])) ?_
  refine .bind (.set' (by simp [attrOf_putAttr_isSome, attrOf, UaPdu.members, DistributedEmissionsFamilyPdu.members, Pdu.members, PduSuperclass.members])) ?_
  refine .bind (.set' (by simp [attrOf_putAttr_isSome, attrOf, UaPdu.members, DistributedEmissionsFamilyPdu.members, Pdu.members, PduSuperclass.members])) ?_
  refine .bind (.set' (by simp [attrOf_putAttr_isSome, attrOf, UaPdu.members, DistributedEmissionsFamilyPdu.members, Pdu.members, PduSuperclass.members])) ?_
  refine .bind (.set' (by simp [attrOf_putAttr_isSome, attrOf, UaPdu.members, DistributedEmissionsFamilyPdu.members, Pdu.members, PduSuperclass.members])) ?_
  refine .bind (.setOr' .empty (by simp [attrOf_putAttr_isSome, attrOf, UaPdu.members, DistributedEmissionsFamilyPdu.members, Pdu.members, PduSuperclass.members])) ?_
  refine .bind (.setOr' .empty (by simp [attrOf_putAttr_isSome, attrOf, UaPdu.members, DistributedEmissionsFamilyPdu.members, Pdu.members, PduSuperclass.members])) ?_
  exact .cast (.setOr' .empty (by simp [attrOf_putAttr_isSome, attrOf, UaPdu.members, DistributedEmissionsFamilyPdu.members, Pdu.members, PduSuperclass.members]))
    (by simp [putAttr, UaPdu.members, DistributedEmissionsFamilyPdu.members, Pdu.members, PduSuperclass.members, Tree.ints, Tree.objs, Tree.optInt, Tree.optObj, Tree.intOr])

theorem UaPdu.makesNew : MakesNew UaPdu.newHeap (.obj (UaPdu.members UaPdu.init)) :=
  .new (.cast (UaPdu.inits 29 6 []) (List.append_nil _))

theorem UaPdu.refines : Refines UaPdu.members UaPdu.parseInto UaPdu.parseHeap := by
  unfold UaPdu.parseInto UaPdu.parseHeap
  refine .bind (.super DistributedEmissionsFamilyPdu.refines (fun _ => rfl) (fun _ _ => rfl)) fun _ => ?_
  refine .bind (.call' EntityIdentifier.refines (fun o => by simp [UaPdu.members, DistributedEmissionsFamilyPdu.members, Pdu.members, PduSuperclass.members, attrOf]) (fun o v => by simp [UaPdu.members, DistributedEmissionsFamilyPdu.members, Pdu.members, PduSuperclass.members, putAttr, Tree.optInt, Tree.intOr])) fun _ => ?_
  refine .bind (.call' EventIdentifier.refines (fun o => by simp [UaPdu.members, DistributedEmissionsFamilyPdu.members, Pdu.members, PduSuperclass.members, attrOf]) (fun o v => by simp [UaPdu.members, DistributedEmissionsFamilyPdu.members, Pdu.members, PduSuperclass.members, putAttr, Tree.optInt, Tree.intOr])) fun _ => ?_
  refine .bind .read fun _ => ?_
  refine .bind (.set' (fun o => by simp [UaPdu.members, DistributedEmissionsFamilyPdu.members, Pdu.members, PduSuperclass.members, attrOf]) (fun o => by simp [UaPdu.members, DistributedEmissionsFamilyPdu.members, Pdu.members, PduSuperclass.members, putAttr, Tree.optInt, Tree.intOr])) fun _ => ?_
  refine .bind .read fun _ => ?_
  refine .bind (.set' (fun o => by simp [UaPdu.members, DistributedEmissionsFamilyPdu.members, Pdu.members, PduSuperclass.members, attrOf]) (fun o => by simp [UaPdu.members, DistributedEmissionsFamilyPdu.members, Pdu.members, PduSuperclass.members, putAttr, Tree.optInt, Tree.intOr])) fun _ => ?_
  refine .bind .read fun _ => ?_
  refine .bind (.set' (fun o => by simp [UaPdu.members, DistributedEmissionsFamilyPdu.members, Pdu.members, PduSuperclass.members, attrOf]) (fun o => by simp [UaPdu.members, DistributedEmissionsFamilyPdu.members, Pdu.members, PduSuperclass.members, putAttr, Tree.optInt, Tree.intOr])) fun _ => ?_
  refine .bind .read fun _ => ?_
  refine .bind (.set' (fun o => by simp [UaPdu.members, DistributedEmissionsFamilyPdu.members, Pdu.members, PduSuperclass.members, attrOf]) (fun o => by simp [UaPdu.members, DistributedEmissionsFamilyPdu.members, Pdu.members, PduSuperclass.members, putAttr, Tree.optInt, Tree.intOr])) fun _ => ?_
  refine .bind .read fun _ => ?_
  refine .bind .read fun _ => ?_
  refine .bind .read fun _ => ?_
  refine .bind .raises fun _ => ?_
  refine .bind .raises fun _ => ?_
  refine .bind .raises fun _ => ?_
  exact .pure

theorem UaPdu.shows : Shows UaPdu.members UaPdu.serialize UaPdu.serializeHeap := by
  unfold UaPdu.serialize UaPdu.serializeHeap
  refine .bind (.super DistributedEmissionsFamilyPdu.shows (fun _ => rfl)) ?_
  refine .bind (.call EntityIdentifier.shows (fun o => by simp [UaPdu.members, DistributedEmissionsFamilyPdu.members, Pdu.members, PduSuperclass.members, attrOf])) ?_
  refine .bind (.call EventIdentifier.shows (fun o => by simp [UaPdu.members, DistributedEmissionsFamilyPdu.members, Pdu.members, PduSuperclass.members, attrOf])) ?_
  refine .bind (.putInt (fun o => by simp [UaPdu.members, DistributedEmissionsFamilyPdu.members, Pdu.members, PduSuperclass.members, attrOf])) ?_
  refine .bind (.putInt (fun o => by simp [UaPdu.members, DistributedEmissionsFamilyPdu.members, Pdu.members, PduSuperclass.members, attrOf])) ?_
  refine .bind (.putInt (fun o => by simp [UaPdu.members, DistributedEmissionsFamilyPdu.members, Pdu.members, PduSuperclass.members, attrOf])) ?_
  refine .bind (.putInt (fun o => by simp [UaPdu.members, DistributedEmissionsFamilyPdu.members, Pdu.members, PduSuperclass.members, attrOf])) ?_
  refine .bind (.lenInts (fun o => by simp [UaPdu.members, DistributedEmissionsFamilyPdu.members, Pdu.members, PduSuperclass.members, attrOf])) ?_
  refine .bind (.lenInts (fun o => by simp [UaPdu.members, DistributedEmissionsFamilyPdu.members, Pdu.members, PduSuperclass.members, attrOf])) ?_
  refine .bind (.lenInts (fun o => by simp [UaPdu.members, DistributedEmissionsFamilyPdu.members, Pdu.members, PduSuperclass.members, attrOf])) ?_
  refine .bind (.eachRaises (fun o => by simp [UaPdu.members, DistributedEmissionsFamilyPdu.members, Pdu.members, PduSuperclass.members, attrOf])) ?_
  refine .bind (.eachRaises (fun o => by simp [UaPdu.members, DistributedEmissionsFamilyPdu.members, Pdu.members, PduSuperclass.members, attrOf])) ?_
  exact .eachRaises (fun o => by simp [UaPdu.members, DistributedEmissionsFamilyPdu.members, Pdu.members, PduSuperclass.members, attrOf])

theorem SignalPdu.inits (p pf : Int) (ex : List (String × Tree)) : Inits (fun self => SignalPdu.initHeap self)
      (([("protocolVersion", .sc .absent), ("exerciseID", .sc .absent), ("pduType", .sc (.int p)), ("protocolFamily", .sc (.int pf)), ("timestamp", .sc .absent), ("length", .sc .absent)] : List (String × Tree)) ++
      (([("pduStatus", .sc .absent), ("padding", .sc .absent)] : List (String × Tree)) ++
      ([] ++
      (([("entityID", .sc .absent), ("radioID", .sc .absent), ("encodingScheme", .sc .absent), ("tdlType", .sc .absent), ("sampleRate", .sc .absent), ("samples", .sc .absent), ("data", .sc .absent)] : List (String × Tree)) ++ ex))))
      (SignalPdu.members { pduType := p, protocolFamily := pf } ++ ex) := by
  unfold SignalPdu.initHeap
  refine .bind (RadioCommunicationsFamilyPdu.inits p pf _) ?_
  refine .bind (.setOr' EntityIdentifier.makesNew (by simp [attrOf_putAttr_isSome, attrOf, SignalPdu.members, RadioCommunicationsFamilyPdu.members, Pdu.members, PduSuperclass.members])) ?_
  refine .bind (.set' (by simp [attrOf_putAttr_isSome, attrOf, SignalPdu.members, RadioCommunicationsFamilyPdu.members, Pdu.members, PduSuperclass.members])) ?_
  refine .bind (.set' (by simp [attrOf_putAttr_isSome, attrOf, SignalPdu.members, RadioCommunicationsFamilyPdu.members, Pdu.members, PduSuperclass.members])) ?_
  refine .bind (.set' (by simp [attrOf_putAttr_isSome, attrOf, SignalPdu.members, RadioCommunicationsFamilyPdu.members, Pdu.members, PduSuperclass.members])) ?_
  refine .bind (.set' (by simp [attrOf_putAttr_isSome, attrOf, SignalPdu.members, RadioCommunicationsFamilyPdu.members, Pdu.members, PduSuperclass.members])) ?_
  refine .bind (.set' (by simp [attrOf_putAttr_isSome, attrOf, SignalPdu.members, RadioCommunicationsFamilyPdu.members, Pdu.members, PduSuperclass.members])) ?_
  exact .cast (.setOr' .empty (by simp [attrOf_putAttr_isSome, attrOf, SignalPdu.members, RadioCommunicationsFamilyPdu.members, Pdu.members, PduSuperclass.members]))
    (by simp [putAttr, SignalPdu.members, RadioCommunicationsFamilyPdu.members, Pdu.members, PduSuperclass.members, Tree.ints, Tree.objs, Tree.optInt, Tree.optObj, Tree.intOr])

theorem SignalPdu.makesNew : MakesNew SignalPdu.newHeap (.obj (SignalPdu.members SignalPdu.init)) :=
  .new (.cast (SignalPdu.inits 26 4 []) (List.append_nil _))

theorem SignalPdu.refines : Refines SignalPdu.members SignalPdu.parseInto SignalPdu.parseHeap := by
  unfold SignalPdu.parseInto SignalPdu.parseHeap
  refine .bind (.super RadioCommunicationsFamilyPdu.refines (fun _ => rfl) (fun _ _ => rfl)) fun _ => ?_
  refine .bind (.call' EntityIdentifier.refines (fun o => by simp [SignalPdu.members, RadioCommunicationsFamilyPdu.members, Pdu.members, PduSuperclass.members, attrOf]) (fun o v => by simp [SignalPdu.members, RadioCommunicationsFamilyPdu.members, Pdu.members, PduSuperclass.members, putAttr, Tree.optInt, Tree.intOr])) fun _ => ?_
  refine .bind .read fun _ => ?_
  refine .bind (.set' (fun o => by simp [SignalPdu.members, RadioCommunicationsFamilyPdu.members, Pdu.members, PduSuperclass.members, attrOf]) (fun o => by simp [SignalPdu.members, RadioCommunicationsFamilyPdu.members, Pdu.members, PduSuperclass.members, putAttr, Tree.optInt, Tree.intOr])) fun _ => ?_
  refine .bind .read fun _ => ?_
  refine .bind (.set' (fun o => by simp [SignalPdu.members, RadioCommunicationsFamilyPdu.members, Pdu.members, PduSuperclass.members, attrOf]) (fun o => by simp [SignalPdu.members, RadioCommunicationsFamilyPdu.members, Pdu.members, PduSuperclass.members, putAttr, Tree.optInt, Tree.intOr])) fun _ => ?_
  refine .bind .read fun _ => ?_
  refine .bind (.set' (fun o => by simp [SignalPdu.members, RadioCommunicationsFamilyPdu.members, Pdu.members, PduSuperclass.members, attrOf]) (fun o => by simp [SignalPdu.members, RadioCommunicationsFamilyPdu.members, Pdu.members, PduSuperclass.members, putAttr, Tree.optInt, Tree.intOr])) fun _ => ?_
  refine .bind .read fun _ => ?_
  refine .bind (.set' (fun o => by simp [SignalPdu.members, RadioCommunicationsFamilyPdu.members, Pdu.members, PduSuperclass.members, attrOf]) (fun o => by simp [SignalPdu.members, RadioCommunicationsFamilyPdu.members, Pdu.members, PduSuperclass.members, putAttr, Tree.optInt, Tree.intOr])) fun _ => ?_
  refine .bind .read fun _ => ?_
  refine .bind .read fun _ => ?_
  refine .bind (.set' (fun o => by simp [SignalPdu.members, RadioCommunicationsFamilyPdu.members, Pdu.members, PduSuperclass.members, attrOf]) (fun o => by simp [SignalPdu.members, RadioCommunicationsFamilyPdu.members, Pdu.members, PduSuperclass.members, putAttr, Tree.optInt, Tree.intOr])) fun _ => ?_
  refine .bind (.reads (fun o => by simp [SignalPdu.members, RadioCommunicationsFamilyPdu.members, Pdu.members, PduSuperclass.members, attrOf]) (fun o v => by simp [SignalPdu.members, RadioCommunicationsFamilyPdu.members, Pdu.members, PduSuperclass.members, putAttr, Tree.optInt, Tree.intOr])) fun _ => ?_
  exact .pure

theorem SignalPdu.shows : Shows SignalPdu.members SignalPdu.serialize SignalPdu.serializeHeap := by
  unfold SignalPdu.serialize SignalPdu.serializeHeap
  refine .bind (.super RadioCommunicationsFamilyPdu.shows (fun _ => rfl)) ?_
  refine .bind (.call EntityIdentifier.shows (fun o => by simp [SignalPdu.members, RadioCommunicationsFamilyPdu.members, Pdu.members, PduSuperclass.members, attrOf])) ?_
  refine .bind (.putInt (fun o => by simp [SignalPdu.members, RadioCommunicationsFamilyPdu.members, Pdu.members, PduSuperclass.members, attrOf])) ?_
  refine .bind (.putInt (fun o => by simp [SignalPdu.members, RadioCommunicationsFamilyPdu.members, Pdu.members, PduSuperclass.members, attrOf])) ?_
  refine .bind (.putInt (fun o => by simp [SignalPdu.members, RadioCommunicationsFamilyPdu.members, Pdu.members, PduSuperclass.members, attrOf])) ?_
  refine .bind (.putInt (fun o => by simp [SignalPdu.members, RadioCommunicationsFamilyPdu.members, Pdu.members, PduSuperclass.members, attrOf])) ?_
  refine .bind (.lenInts (k := fun n => write_unsigned_short (n * 8)) (fun o => by simp [SignalPdu.members, RadioCommunicationsFamilyPdu.members, Pdu.members, PduSuperclass.members, attrOf])) ?_
  refine .bind (.putInt (fun o => by simp [SignalPdu.members, RadioCommunicationsFamilyPdu.members, Pdu.members, PduSuperclass.members, attrOf])) ?_
  exact .eachInts (fun o => by simp [SignalPdu.members, RadioCommunicationsFamilyPdu.members, Pdu.members, PduSuperclass.members, attrOf])

theorem RemoveEntityReliablePdu.inits (p pf : Int) (ex : List (String × Tree)) : Inits (fun self => RemoveEntityReliablePdu.initHeap self)
      (([("protocolVersion", .sc .absent), ("exerciseID", .sc .absent), ("pduType", .sc (.int p)), ("protocolFamily", .sc (.int pf)), ("timestamp", .sc .absent), ("length", .sc .absent)] : List (String × Tree)) ++
      (([("pduStatus", .sc .absent), ("padding", .sc .absent)] : List (String × Tree)) ++
      (([("originatingEntityID", .sc .absent), ("receivingEntityID", .sc .absent)] : List (String × Tree)) ++
      (([("requiredReliabilityService", .sc .absent), ("pad1", .sc .absent), ("pad2", .sc .absent), ("requestID", .sc .absent)] : List (String × Tree)) ++ ex))))
      (RemoveEntityReliablePdu.members { pduType := p, protocolFamily := pf } ++ ex) := by
  unfold RemoveEntityReliablePdu.initHeap
  refine .bind (SimulationManagementWithReliabilityFamilyPdu.inits p pf _) ?_
  refine .bind (.set' (by simp [attrOf_putAttr_isSome, attrOf, RemoveEntityReliablePdu.members, SimulationManagementWithReliabilityFamilyPdu.members, Pdu.members, PduSuperclass.members])) ?_
  refine .bind (.set' (by simp [attrOf_putAttr_isSome, attrOf, RemoveEntityReliablePdu.members, SimulationManagementWithReliabilityFamilyPdu.members, Pdu.members, PduSuperclass.members])) ?_
  refine .bind (.set' (by simp [attrOf_putAttr_isSome, attrOf, RemoveEntityReliablePdu.members, SimulationManagementWithReliabilityFamilyPdu.members, Pdu.members, PduSuperclass.members])) ?_
  exact .cast (.set' (by simp [attrOf_putAttr_isSome, attrOf, RemoveEntityReliablePdu.members, SimulationManagementWithReliabilityFamilyPdu.members, Pdu.members, PduSuperclass.members]))
    (by simp [putAttr, RemoveEntityReliablePdu.members, SimulationManagementWithReliabilityFamilyPdu.members, Pdu.members, PduSuperclass.members, Tree.ints, Tree.objs, Tree.optInt, Tree.optObj, Tree.intOr])

theorem RemoveEntityReliablePdu.makesNew : MakesNew RemoveEntityReliablePdu.newHeap (.obj (RemoveEntityReliablePdu.members RemoveEntityReliablePdu.init)) :=
  .new (.cast (RemoveEntityReliablePdu.inits 52 10 []) (List.append_nil _))

theorem RemoveEntityReliablePdu.refines : Refines RemoveEntityReliablePdu.members RemoveEntityReliablePdu.parseInto RemoveEntityReliablePdu.parseHeap := by
  unfold RemoveEntityReliablePdu.parseInto RemoveEntityReliablePdu.parseHeap
  refine .bind (.super SimulationManagementWithReliabilityFamilyPdu.refines (fun _ => rfl) (fun _ _ => rfl)) fun _ => ?_
  refine .bind .read fun _ => ?_
  refine .bind (.set' (fun o => by simp [RemoveEntityReliablePdu.members, SimulationManagementWithReliabilityFamilyPdu.members, Pdu.members, PduSuperclass.members, attrOf]) (fun o => by simp [RemoveEntityReliablePdu.members, SimulationManagementWithReliabilityFamilyPdu.members, Pdu.members, PduSuperclass.members, putAttr, Tree.optInt, Tree.intOr])) fun _ => ?_
  refine .bind .read fun _ => ?_
  refine .bind (.set' (fun o => by simp [RemoveEntityReliablePdu.members, SimulationManagementWithReliabilityFamilyPdu.members, Pdu.members, PduSuperclass.members, attrOf]) (fun o => by simp [RemoveEntityReliablePdu.members, SimulationManagementWithReliabilityFamilyPdu.members, Pdu.members, PduSuperclass.members, putAttr, Tree.optInt, Tree.intOr])) fun _ => ?_
  refine .bind .read fun _ => ?_
  refine .bind (.set' (fun o => by simp [RemoveEntityReliablePdu.members, SimulationManagementWithReliabilityFamilyPdu.members, Pdu.members, PduSuperclass.members, attrOf]) (fun o => by simp [RemoveEntityReliablePdu.members, SimulationManagementWithReliabilityFamilyPdu.members, Pdu.members, PduSuperclass.members, putAttr, Tree.optInt, Tree.intOr])) fun _ => ?_
  refine .bind .read fun _ => ?_
  refine .bind (.set' (fun o => by simp [RemoveEntityReliablePdu.members, SimulationManagementWithReliabilityFamilyPdu.members, Pdu.members, PduSuperclass.members, attrOf]) (fun o => by simp [RemoveEntityReliablePdu.members, SimulationManagementWithReliabilityFamilyPdu.members, Pdu.members, PduSuperclass.members, putAttr, Tree.optInt, Tree.intOr])) fun _ => ?_
  exact .pure

theorem RemoveEntityReliablePdu.shows : Shows RemoveEntityReliablePdu.members RemoveEntityReliablePdu.serialize RemoveEntityReliablePdu.serializeHeap := by
  unfold RemoveEntityReliablePdu.serialize RemoveEntityReliablePdu.serializeHeap
  refine .bind (.super SimulationManagementWithReliabilityFamilyPdu.shows (fun _ => rfl)) ?_
  refine .bind (.putInt (fun o => by simp [RemoveEntityReliablePdu.members, SimulationManagementWithReliabilityFamilyPdu.members, Pdu.members, PduSuperclass.members, attrOf])) ?_
  refine .bind (.putInt (fun o => by simp [RemoveEntityReliablePdu.members, SimulationManagementWithReliabilityFamilyPdu.members, Pdu.members, PduSuperclass.members, attrOf])) ?_
  refine .bind (.putInt (fun o => by simp [RemoveEntityReliablePdu.members, SimulationManagementWithReliabilityFamilyPdu.members, Pdu.members, PduSuperclass.members, attrOf])) ?_
  exact .putInt (fun o => by simp [RemoveEntityReliablePdu.members, SimulationManagementWithReliabilityFamilyPdu.members, Pdu.members, PduSuperclass.members, attrOf])

theorem SeesPdu.inits (p pf : Int) (ex : List (String × Tree)) : Inits (fun self => SeesPdu.initHeap self)
      (([("protocolVersion", .sc .absent), ("exerciseID", .sc .absent), ("pduType", .sc (.int p)), ("protocolFamily", .sc (.int pf)), ("timestamp", .sc .absent), ("length", .sc .absent)] : List (String × Tree)) ++
      (([("pduStatus", .sc .absent), ("padding", .sc .absent)] : List (String × Tree)) ++
      ([] ++
      (([("orginatingEntityID", .sc .absent), ("infraredSignatureRepresentationIndex", .sc .absent), ("acousticSignatureRepresentationIndex", .sc .absent), ("radarCrossSectionSignatureRepresentationIndex", .sc .absent), ("propulsionSystemData", .sc .absent), ("vectoringSystemData", .sc .absent)] : List (String × Tree)) ++ ex))))
      (SeesPdu.members { pduType := p, protocolFamily := pf } ++ ex) := by
  unfold SeesPdu.initHeap
  refine .bind (DistributedEmissionsFamilyPdu.inits p pf _) ?_
  refine .bind (.setOr' EntityIdentifier.makesNew (by simp [attrOf_putAttr_isSome, attrOf, SeesPdu.members, DistributedEmissionsFamilyPdu.members, Pdu.members, PduSuperclass.members])) ?_
  refine .bind (.set' (by simp [attrOf_putAttr_isSome, attrOf, SeesPdu.members, DistributedEmissionsFamilyPdu.members, Pdu.members, PduSuperclass.members])) ?_
  refine .bind (.set' (by simp [attrOf_putAttr_isSome, attrOf, SeesPdu.members, DistributedEmissionsFamilyPdu.members, Pdu.members, PduSuperclass.members])) ?_
  refine .bind (.set' (by simp [attrOf_putAttr_isSome, attrOf, SeesPdu.members, DistributedEmissionsFamilyPdu.members, Pdu.members, PduSuperclass.members])) ?_
  refine .bind (.setOr' .empty (by simp [attrOf_putAttr_isSome, attrOf, SeesPdu.members, DistributedEmissionsFamilyPdu.members, Pdu.members, PduSuperclass.members])) ?_
  exact .cast (.setOr' .empty (by simp [attrOf_putAttr_isSome, attrOf, SeesPdu.members, DistributedEmissionsFamilyPdu.members, Pdu.members, PduSuperclass.members]))
    (by simp [putAttr, SeesPdu.members, DistributedEmissionsFamilyPdu.members, Pdu.members, PduSuperclass.members, Tree.ints, Tree.objs, Tree.optInt, Tree.optObj, Tree.intOr])

theorem SeesPdu.makesNew : MakesNew SeesPdu.newHeap (.obj (SeesPdu.members SeesPdu.init)) :=
  .new (.cast (SeesPdu.inits 30 6 []) (List.append_nil _))

theorem SeesPdu.refines : Refines SeesPdu.members SeesPdu.parseInto SeesPdu.parseHeap := by
  unfold SeesPdu.parseInto SeesPdu.parseHeap
  refine .bind (.super DistributedEmissionsFamilyPdu.refines (fun _ => rfl) (fun _ _ => rfl)) fun _ => ?_
  refine .bind (.call' EntityIdentifier.refines (fun o => by simp [SeesPdu.members, DistributedEmissionsFamilyPdu.members, Pdu.members, PduSuperclass.members, attrOf]) (fun o v => by simp [SeesPdu.members, DistributedEmissionsFamilyPdu.members, Pdu.members, PduSuperclass.members, putAttr, Tree.optInt, Tree.intOr])) fun _ => ?_
  refine .bind .read fun _ => ?_
  refine .bind (.set' (fun o => by simp [SeesPdu.members, DistributedEmissionsFamilyPdu.members, Pdu.members, PduSuperclass.members, attrOf]) (fun o => by simp [SeesPdu.members, DistributedEmissionsFamilyPdu.members, Pdu.members, PduSuperclass.members, putAttr, Tree.optInt, Tree.intOr])) fun _ => ?_
  refine .bind .read fun _ => ?_
  refine .bind (.set' (fun o => by simp [SeesPdu.members, DistributedEmissionsFamilyPdu.members, Pdu.members, PduSuperclass.members, attrOf]) (fun o => by simp [SeesPdu.members, DistributedEmissionsFamilyPdu.members, Pdu.members, PduSuperclass.members, putAttr, Tree.optInt, Tree.intOr])) fun _ => ?_
  refine .bind .read fun _ => ?_
  refine .bind (.set' (fun o => by simp [SeesPdu.members, DistributedEmissionsFamilyPdu.members, Pdu.members, PduSuperclass.members, attrOf]) (fun o => by simp [SeesPdu.members, DistributedEmissionsFamilyPdu.members, Pdu.members, PduSuperclass.members, putAttr, Tree.optInt, Tree.intOr])) fun _ => ?_
  refine .bind .read fun _ => ?_
  refine .bind .read fun _ => ?_
  refine .bind .raises fun _ => ?_
  refine .bind .raises fun _ => ?_
  exact .pure

theorem SeesPdu.shows : Shows SeesPdu.members SeesPdu.serialize SeesPdu.serializeHeap := by
  unfold SeesPdu.serialize SeesPdu.serializeHeap
  refine .bind (.super DistributedEmissionsFamilyPdu.shows (fun _ => rfl)) ?_
  refine .bind (.call EntityIdentifier.shows (fun o => by simp [SeesPdu.members, DistributedEmissionsFamilyPdu.members, Pdu.members, PduSuperclass.members, attrOf])) ?_
  refine .bind (.putInt (fun o => by simp [SeesPdu.members, DistributedEmissionsFamilyPdu.members, Pdu.members, PduSuperclass.members, attrOf])) ?_
  refine .bind (.putInt (fun o => by simp [SeesPdu.members, DistributedEmissionsFamilyPdu.members, Pdu.members, PduSuperclass.members, attrOf])) ?_
  refine .bind (.putInt (fun o => by simp [SeesPdu.members, DistributedEmissionsFamilyPdu.members, Pdu.members, PduSuperclass.members, attrOf])) ?_
  refine .bind (.lenObjs (ts := PropulsionSystemData.members) (fun o => by simp [SeesPdu.members, DistributedEmissionsFamilyPdu.members, Pdu.members, PduSuperclass.members, attrOf])) ?_
  refine .bind (.lenObjs (ts := VectoringNozzleSystem.members) (fun o => by simp [SeesPdu.members, DistributedEmissionsFamilyPdu.members, Pdu.members, PduSuperclass.members, attrOf])) ?_
  refine .bind (.eachObj PropulsionSystemData.shows (fun o => by simp [SeesPdu.members, DistributedEmissionsFamilyPdu.members, Pdu.members, PduSuperclass.members, attrOf])) ?_
  exact .eachObj VectoringNozzleSystem.shows (fun o => by simp [SeesPdu.members, DistributedEmissionsFamilyPdu.members, Pdu.members, PduSuperclass.members, attrOf])

theorem CreateEntityReliablePdu.inits (p pf : Int) (ex : List (String × Tree)) : Inits (fun self => CreateEntityReliablePdu.initHeap self)
      (([("protocolVersion", .sc .absent), ("exerciseID", .sc .absent), ("pduType", .sc (.int p)), ("protocolFamily", .sc (.int pf)), ("timestamp", .sc .absent), ("length", .sc .absent)] : List (String × Tree)) ++
      (([("pduStatus", .sc .absent), ("padding", .sc .absent)] : List (String × Tree)) ++
      (([("originatingEntityID", .sc .absent), ("receivingEntityID", .sc .absent)] : List (String × Tree)) ++
      (([("requiredReliabilityService", .sc .absent), ("pad1", .sc .absent), ("pad2", .sc .absent), ("requestID", .sc .absent)] : List (String × Tree)) ++ ex))))
      (CreateEntityReliablePdu.members { pduType := p, protocolFamily := pf } ++ ex) := by
  unfold CreateEntityReliablePdu.initHeap
  refine .bind (SimulationManagementWithReliabilityFamilyPdu.inits p pf _) ?_
  refine .bind (.set' (by simp [attrOf_putAttr_isSome, attrOf, CreateEntityReliablePdu.members, SimulationManagementWithReliabilityFamilyPdu.members, Pdu.members, PduSuperclass.members])) ?_
  refine .bind (.set' (by simp [attrOf_putAttr_isSome, attrOf, CreateEntityReliablePdu.members, SimulationManagementWithReliabilityFamilyPdu.members, Pdu.members, PduSuperclass.members])) ?_
  refine .bind (.set' (by simp [attrOf_putAttr_isSome, attrOf, CreateEntityReliablePdu.members, SimulationManagementWithReliabilityFamilyPdu.members, Pdu.members, PduSuperclass.members])) ?_
  exact .cast (.set' (by simp [attrOf_putAttr_isSome, attrOf, CreateEntityReliablePdu.members, SimulationManagementWithReliabilityFamilyPdu.members, Pdu.members, PduSuperclass.members]))
    (by simp [putAttr, CreateEntityReliablePdu.members, SimulationManagementWithReliabilityFamilyPdu.members, Pdu.members, PduSuperclass.members, Tree.ints, Tree.objs, Tree.optInt, Tree.optObj, Tree.intOr])

theorem CreateEntityReliablePdu.makesNew : MakesNew CreateEntityReliablePdu.newHeap (.obj (CreateEntityReliablePdu.members CreateEntityReliablePdu.init)) :=
  .new (.cast (CreateEntityReliablePdu.inits 51 10 []) (List.append_nil _))

theorem CreateEntityReliablePdu.refines : Refines CreateEntityReliablePdu.members CreateEntityReliablePdu.parseInto CreateEntityReliablePdu.parseHeap := by
  unfold CreateEntityReliablePdu.parseInto CreateEntityReliablePdu.parseHeap
  refine .bind (.super SimulationManagementWithReliabilityFamilyPdu.refines (fun _ => rfl) (fun _ _ => rfl)) fun _ => ?_
  refine .bind .read fun _ => ?_
  refine .bind (.set' (fun o => by simp [CreateEntityReliablePdu.members, SimulationManagementWithReliabilityFamilyPdu.members, Pdu.members, PduSuperclass.members, attrOf]) (fun o => by simp [CreateEntityReliablePdu.members, SimulationManagementWithReliabilityFamilyPdu.members, Pdu.members, PduSuperclass.members, putAttr, Tree.optInt, Tree.intOr])) fun _ => ?_
  refine .bind .read fun _ => ?_
  refine .bind (.set' (fun o => by simp [CreateEntityReliablePdu.members, SimulationManagementWithReliabilityFamilyPdu.members, Pdu.members, PduSuperclass.members, attrOf]) (fun o => by simp [CreateEntityReliablePdu.members, SimulationManagementWithReliabilityFamilyPdu.members, Pdu.members, PduSuperclass.members, putAttr, Tree.optInt, Tree.intOr])) fun _ => ?_
  refine .bind .read fun _ => ?_
  refine .bind (.set' (fun o => by simp [CreateEntityReliablePdu.members, SimulationManagementWithReliabilityFamilyPdu.members, Pdu.members, PduSuperclass.members, attrOf]) (fun o => by simp [CreateEntityReliablePdu.members, SimulationManagementWithReliabilityFamilyPdu.members, Pdu.members, PduSuperclass.members, putAttr, Tree.optInt, Tree.intOr])) fun _ => ?_
  refine .bind .read fun _ => ?_
  refine .bind (.set' (fun o => by simp [CreateEntityReliablePdu.members, SimulationManagementWithReliabilityFamilyPdu.members, Pdu.members, PduSuperclass.members, attrOf]) (fun o => by simp [CreateEntityReliablePdu.members, SimulationManagementWithReliabilityFamilyPdu.members, Pdu.members, PduSuperclass.members, putAttr, Tree.optInt, Tree.intOr])) fun _ => ?_
  exact .pure

theorem CreateEntityReliablePdu.shows : Shows CreateEntityReliablePdu.members CreateEntityReliablePdu.serialize CreateEntityReliablePdu.serializeHeap := by
  unfold CreateEntityReliablePdu.serialize CreateEntityReliablePdu.serializeHeap
  refine .bind (.super SimulationManagementWithReliabilityFamilyPdu.shows (fun _ => rfl)) ?_
  refine .bind (.putInt (fun o => by simp [CreateEntityReliablePdu.members, SimulationManagementWithReliabilityFamilyPdu.members, Pdu.members, PduSuperclass.members, attrOf])) ?_
  refine .bind (.putInt (fun o => by simp [CreateEntityReliablePdu.members, SimulationManagementWithReliabilityFamilyPdu.members, Pdu.members, PduSuperclass.members, attrOf])) ?_
  refine .bind (.putInt (fun o => by simp [CreateEntityReliablePdu.members, SimulationManagementWithReliabilityFamilyPdu.members, Pdu.members, PduSuperclass.members, attrOf])) ?_
  exact .putInt (fun o => by simp [CreateEntityReliablePdu.members, SimulationManagementWithReliabilityFamilyPdu.members, Pdu.members, PduSuperclass.members, attrOf])

theorem StopFreezeReliablePdu.inits (p pf : Int) (ex : List (String × Tree)) : Inits (fun self => StopFreezeReliablePdu.initHeap self)
      (([("protocolVersion", .sc .absent), ("exerciseID", .sc .absent), ("pduType", .sc (.int p)), ("protocolFamily", .sc (.int pf)), ("timestamp", .sc .absent), ("length", .sc .absent)] : List (String × Tree)) ++
      (([("pduStatus", .sc .absent), ("padding", .sc .absent)] : List (String × Tree)) ++
      (([("originatingEntityID", .sc .absent), ("receivingEntityID", .sc .absent)] : List (String × Tree)) ++
      (([("realWorldTime", .sc .absent), ("reason", .sc .absent), ("frozenBehavior", .sc .absent), ("requiredReliablityService", .sc .absent), ("pad1", .sc .absent), ("requestID", .sc .absent)] : List (String × Tree)) ++ ex))))
      (StopFreezeReliablePdu.members { pduType := p, protocolFamily := pf } ++ ex) := by
  unfold StopFreezeReliablePdu.initHeap
  refine .bind (SimulationManagementWithReliabilityFamilyPdu.inits p pf _) ?_
  refine .bind (.setOr' ClockTime.makesNew (by simp [attrOf_putAttr_isSome, attrOf, StopFreezeReliablePdu.members, SimulationManagementWithReliabilityFamilyPdu.members, Pdu.members, PduSuperclass.members])) ?_
  refine .bind (.set' (by simp [attrOf_putAttr_isSome, attrOf, StopFreezeReliablePdu.members, SimulationManagementWithReliabilityFamilyPdu.members, Pdu.members, PduSuperclass.members])) ?_
  refine .bind (.set' (by simp [attrOf_putAttr_isSome, attrOf, StopFreezeReliablePdu.members, SimulationManagementWithReliabilityFamilyPdu.members, Pdu.members, PduSuperclass.members])) ?_
  refine .bind (.set' (by simp [attrOf_putAttr_isSome, attrOf, StopFreezeReliablePdu.members, SimulationManagementWithReliabilityFamilyPdu.members, Pdu.members, PduSuperclass.members])) ?_
  refine .bind (.set' (by simp [attrOf_putAttr_isSome, attrOf, StopFreezeReliablePdu.members, SimulationManagementWithReliabilityFamilyPdu.members, Pdu.members, PduSuperclass.members])) ?_
  exact .cast (.set' (by simp [attrOf_putAttr_isSome, attrOf, StopFreezeReliablePdu.members, SimulationManagementWithReliabilityFamilyPdu.members, Pdu.members, PduSuperclass.members]))
    (by simp [putAttr, StopFreezeReliablePdu.members, SimulationManagementWithReliabilityFamilyPdu.members, Pdu.members, PduSuperclass.members, Tree.ints, Tree.objs, Tree.optInt, Tree.optObj, Tree.intOr])

theorem StopFreezeReliablePdu.makesNew : MakesNew StopFreezeReliablePdu.newHeap (.obj (StopFreezeReliablePdu.members StopFreezeReliablePdu.init)) :=
  .new (.cast (StopFreezeReliablePdu.inits 54 10 []) (List.append_nil _))

theorem StopFreezeReliablePdu.refines : Refines StopFreezeReliablePdu.members StopFreezeReliablePdu.parseInto StopFreezeReliablePdu.parseHeap := by
  unfold StopFreezeReliablePdu.parseInto StopFreezeReliablePdu.parseHeap
  refine .bind (.super SimulationManagementWithReliabilityFamilyPdu.refines (fun _ => rfl) (fun _ _ => rfl)) fun _ => ?_
  refine .bind (.call' ClockTime.refines (fun o => by simp [StopFreezeReliablePdu.members, SimulationManagementWithReliabilityFamilyPdu.members, Pdu.members, PduSuperclass.members, attrOf]) (fun o v => by simp [StopFreezeReliablePdu.members, SimulationManagementWithReliabilityFamilyPdu.members, Pdu.members, PduSuperclass.members, putAttr, Tree.optInt, Tree.intOr])) fun _ => ?_
  refine .bind .read fun _ => ?_
  refine .bind (.set' (fun o => by simp [StopFreezeReliablePdu.members, SimulationManagementWithReliabilityFamilyPdu.members, Pdu.members, PduSuperclass.members, attrOf]) (fun o => by simp [StopFreezeReliablePdu.members, SimulationManagementWithReliabilityFamilyPdu.members, Pdu.members, PduSuperclass.members, putAttr, Tree.optInt, Tree.intOr])) fun _ => ?_
  refine .bind .read fun _ => ?_
  refine .bind (.set' (fun o => by simp [StopFreezeReliablePdu.members, SimulationManagementWithReliabilityFamilyPdu.members, Pdu.members, PduSuperclass.members, attrOf]) (fun o => by simp [StopFreezeReliablePdu.members, SimulationManagementWithReliabilityFamilyPdu.members, Pdu.members, PduSuperclass.members, putAttr, Tree.optInt, Tree.intOr])) fun _ => ?_
  refine .bind .read fun _ => ?_
  refine .bind (.set' (fun o => by simp [StopFreezeReliablePdu.members, SimulationManagementWithReliabilityFamilyPdu.members, Pdu.members, PduSuperclass.members, attrOf]) (fun o => by simp [StopFreezeReliablePdu.members, SimulationManagementWithReliabilityFamilyPdu.members, Pdu.members, PduSuperclass.members, putAttr, Tree.optInt, Tree.intOr])) fun _ => ?_
  refine .bind .read fun _ => ?_
  refine .bind (.set' (fun o => by simp [StopFreezeReliablePdu.members, SimulationManagementWithReliabilityFamilyPdu.members, Pdu.members, PduSuperclass.members, attrOf]) (fun o => by simp [StopFreezeReliablePdu.members, SimulationManagementWithReliabilityFamilyPdu.members, Pdu.members, PduSuperclass.members, putAttr, Tree.optInt, Tree.intOr])) fun _ => ?_
  refine .bind .read fun _ => ?_
  refine .bind (.set' (fun o => by simp [StopFreezeReliablePdu.members, SimulationManagementWithReliabilityFamilyPdu.members, Pdu.members, PduSuperclass.members, attrOf]) (fun o => by simp [StopFreezeReliablePdu.members, SimulationManagementWithReliabilityFamilyPdu.members, Pdu.members, PduSuperclass.members, putAttr, Tree.optInt, Tree.intOr])) fun _ => ?_
  exact .pure

theorem StopFreezeReliablePdu.shows : Shows StopFreezeReliablePdu.members StopFreezeReliablePdu.serialize StopFreezeReliablePdu.serializeHeap := by
  unfold StopFreezeReliablePdu.serialize StopFreezeReliablePdu.serializeHeap
  refine .bind (.super SimulationManagementWithReliabilityFamilyPdu.shows (fun _ => rfl)) ?_
  refine .bind (.call ClockTime.shows (fun o => by simp [StopFreezeReliablePdu.members, SimulationManagementWithReliabilityFamilyPdu.members, Pdu.members, PduSuperclass.members, attrOf])) ?_
  refine .bind (.putInt (fun o => by simp [StopFreezeReliablePdu.members, SimulationManagementWithReliabilityFamilyPdu.members, Pdu.members, PduSuperclass.members, attrOf])) ?_
  refine .bind (.putInt (fun o => by simp [StopFreezeReliablePdu.members, SimulationManagementWithReliabilityFamilyPdu.members, Pdu.members, PduSuperclass.members, attrOf])) ?_
  refine .bind (.putInt (fun o => by simp [StopFreezeReliablePdu.members, SimulationManagementWithReliabilityFamilyPdu.members, Pdu.members, PduSuperclass.members, attrOf])) ?_
  refine .bind (.putInt (fun o => by simp [StopFreezeReliablePdu.members, SimulationManagementWithReliabilityFamilyPdu.members, Pdu.members, PduSuperclass.members, attrOf])) ?_
  exact .putInt (fun o => by simp [StopFreezeReliablePdu.members, SimulationManagementWithReliabilityFamilyPdu.members, Pdu.members, PduSuperclass.members, attrOf])

theorem EventReportReliablePdu.inits (p pf : Int) (ex : List (String × Tree)) : Inits (fun self => EventReportReliablePdu.initHeap self)
      (([("protocolVersion", .sc .absent), ("exerciseID", .sc .absent), ("pduType", .sc (.int p)), ("protocolFamily", .sc (.int pf)), ("timestamp", .sc .absent), ("length", .sc .absent)] : List (String × Tree)) ++
      (([("pduStatus", .sc .absent), ("padding", .sc .absent)] : List (String × Tree)) ++
      (([("originatingEntityID", .sc .absent), ("receivingEntityID", .sc .absent)] : List (String × Tree)) ++
      (([("eventType", .sc .absent), ("pad1", .sc .absent), ("_datums", .sc .absent)] : List (String × Tree)) ++ ex))))
      (EventReportReliablePdu.members { pduType := p, protocolFamily := pf } ++ ex) := by
  unfold EventReportReliablePdu.initHeap
  refine .bind (SimulationManagementWithReliabilityFamilyPdu.inits p pf _) ?_
  refine .bind (.set' (by simp [attrOf_putAttr_isSome, attrOf, EventReportReliablePdu.members, SimulationManagementWithReliabilityFamilyPdu.members, Pdu.members, PduSuperclass.members])) ?_
  refine .bind (.set' (by simp [attrOf_putAttr_isSome, attrOf, EventReportReliablePdu.members, SimulationManagementWithReliabilityFamilyPdu.members, Pdu.members, PduSuperclass.members])) ?_
  exact .cast (.setNew' DatumSpecification.makesNew' (by simp [attrOf_putAttr_isSome, attrOf, EventReportReliablePdu.members, SimulationManagementWithReliabilityFamilyPdu.members, Pdu.members, PduSuperclass.members]))
    (by simp [putAttr, EventReportReliablePdu.members, SimulationManagementWithReliabilityFamilyPdu.members, Pdu.members, PduSuperclass.members, Tree.ints, Tree.objs, Tree.optInt, Tree.optObj, Tree.intOr])

theorem EventReportReliablePdu.makesNew : MakesNew EventReportReliablePdu.newHeap (.obj (EventReportReliablePdu.members EventReportReliablePdu.init)) :=
  .new (.cast (EventReportReliablePdu.inits 61 10 []) (List.append_nil _))

theorem EventReportReliablePdu.refines : Refines EventReportReliablePdu.members EventReportReliablePdu.parseInto EventReportReliablePdu.parseHeap := by
  unfold EventReportReliablePdu.parseInto EventReportReliablePdu.parseHeap
  refine .bind (.super SimulationManagementWithReliabilityFamilyPdu.refines (fun _ => rfl) (fun _ _ => rfl)) fun _ => ?_
  refine .bind .read fun _ => ?_
  refine .bind (.set' (fun o => by simp [EventReportReliablePdu.members, SimulationManagementWithReliabilityFamilyPdu.members, Pdu.members, PduSuperclass.members, attrOf]) (fun o => by simp [EventReportReliablePdu.members, SimulationManagementWithReliabilityFamilyPdu.members, Pdu.members, PduSuperclass.members, putAttr, Tree.optInt, Tree.intOr])) fun _ => ?_
  refine .bind .read fun _ => ?_
  refine .bind (.set' (fun o => by simp [EventReportReliablePdu.members, SimulationManagementWithReliabilityFamilyPdu.members, Pdu.members, PduSuperclass.members, attrOf]) (fun o => by simp [EventReportReliablePdu.members, SimulationManagementWithReliabilityFamilyPdu.members, Pdu.members, PduSuperclass.members, putAttr, Tree.optInt, Tree.intOr])) fun _ => ?_
  refine .bind (.call' DatumSpecification.refines (fun o => by simp [EventReportReliablePdu.members, SimulationManagementWithReliabilityFamilyPdu.members, Pdu.members, PduSuperclass.members, attrOf]) (fun o v => by simp [EventReportReliablePdu.members, SimulationManagementWithReliabilityFamilyPdu.members, Pdu.members, PduSuperclass.members, putAttr, Tree.optInt, Tree.intOr])) fun _ => ?_
  exact .pure

theorem EventReportReliablePdu.shows : Shows EventReportReliablePdu.members EventReportReliablePdu.serialize EventReportReliablePdu.serializeHeap := by
  unfold EventReportReliablePdu.serialize EventReportReliablePdu.serializeHeap
  refine .bind (.super SimulationManagementWithReliabilityFamilyPdu.shows (fun _ => rfl)) ?_
  refine .bind (.putInt (fun o => by simp [EventReportReliablePdu.members, SimulationManagementWithReliabilityFamilyPdu.members, Pdu.members, PduSuperclass.members, attrOf])) ?_
  refine .bind (.putInt (fun o => by simp [EventReportReliablePdu.members, SimulationManagementWithReliabilityFamilyPdu.members, Pdu.members, PduSuperclass.members, attrOf])) ?_
  exact .call DatumSpecification.shows (fun o => by simp [EventReportReliablePdu.members, SimulationManagementWithReliabilityFamilyPdu.members, Pdu.members, PduSuperclass.members, attrOf])

theorem MinefieldResponseNackPdu.inits (p pf : Int) (ex : List (String × Tree)) : Inits (fun self => MinefieldResponseNackPdu.initHeap self)
      (([("protocolVersion", .sc .absent), ("exerciseID", .sc .absent), ("pduType", .sc (.int p)), ("protocolFamily", .sc (.int pf)), ("timestamp", .sc .absent), ("length", .sc .absent)] : List (String × Tree)) ++
      (([("pduStatus", .sc .absent), ("padding", .sc .absent)] : List (String × Tree)) ++
      ([] ++
      (([("minefieldID", .sc .absent), ("requestingEntityID", .sc .absent), ("requestID", .sc .absent), ("missingPduSequenceNumbers", .sc .absent)] : List (String × Tree)) ++ ex))))
      (MinefieldResponseNackPdu.members { pduType := p, protocolFamily := pf } ++ ex) := by
  unfold MinefieldResponseNackPdu.initHeap
  refine .bind (MinefieldFamilyPdu.inits p pf _) ?_
  refine .bind (.setOr' EntityIdentifier.makesNew (by simp [attrOf_putAttr_isSome, attrOf, MinefieldResponseNackPdu.members, MinefieldFamilyPdu.members, Pdu.members, PduSuperclass.members])) ?_
  refine .bind (.setOr' EntityIdentifier.makesNew (by simp [attrOf_putAttr_isSome, attrOf, MinefieldResponseNackPdu.members, MinefieldFamilyPdu.members, Pdu.members, PduSuperclass.members])) ?_
  refine .bind (.set' (by simp [attrOf_putAttr_isSome, attrOf, MinefieldResponseNackPdu.members, MinefieldFamilyPdu.members, Pdu.members, PduSuperclass.members])) ?_
  exact .cast (.setOr' .empty (by simp [attrOf_putAttr_isSome, attrOf, MinefieldResponseNackPdu.members, MinefieldFamilyPdu.members, Pdu.members, PduSuperclass.members]))
    (by simp [putAttr, MinefieldResponseNackPdu.members, MinefieldFamilyPdu.members, Pdu.members, PduSuperclass.members, Tree.ints, Tree.objs, Tree.optInt, Tree.optObj, Tree.intOr])

theorem MinefieldResponseNackPdu.makesNew : MakesNew MinefieldResponseNackPdu.newHeap (.obj (MinefieldResponseNackPdu.members MinefieldResponseNackPdu.init)) :=
  .new (.cast (MinefieldResponseNackPdu.inits 40 8 []) (List.append_nil _))

theorem MinefieldResponseNackPdu.refines : Refines MinefieldResponseNackPdu.members MinefieldResponseNackPdu.parseInto MinefieldResponseNackPdu.parseHeap := by
  unfold MinefieldResponseNackPdu.parseInto MinefieldResponseNackPdu.parseHeap
  refine .bind (.super MinefieldFamilyPdu.refines (fun _ => rfl) (fun _ _ => rfl)) fun _ => ?_
  refine .bind (.call' EntityIdentifier.refines (fun o => by simp [MinefieldResponseNackPdu.members, MinefieldFamilyPdu.members, Pdu.members, PduSuperclass.members, attrOf]) (fun o v => by simp [MinefieldResponseNackPdu.members, MinefieldFamilyPdu.members, Pdu.members, PduSuperclass.members, putAttr, Tree.optInt, Tree.intOr])) fun _ => ?_
  refine .bind (.call' EntityIdentifier.refines (fun o => by simp [MinefieldResponseNackPdu.members, MinefieldFamilyPdu.members, Pdu.members, PduSuperclass.members, attrOf]) (fun o v => by simp [MinefieldResponseNackPdu.members, MinefieldFamilyPdu.members, Pdu.members, PduSuperclass.members, putAttr, Tree.optInt, Tree.intOr])) fun _ => ?_
  refine .bind .read fun _ => ?_
  refine .bind (.set' (fun o => by simp [MinefieldResponseNackPdu.members, MinefieldFamilyPdu.members, Pdu.members, PduSuperclass.members, attrOf]) (fun o => by simp [MinefieldResponseNackPdu.members, MinefieldFamilyPdu.members, Pdu.members, PduSuperclass.members, putAttr, Tree.optInt, Tree.intOr])) fun _ => ?_
  refine .bind .read fun _ => ?_
  refine .bind .raises fun _ => ?_
  exact .pure

theorem MinefieldResponseNackPdu.shows : Shows MinefieldResponseNackPdu.members MinefieldResponseNackPdu.serialize MinefieldResponseNackPdu.serializeHeap := by
  unfold MinefieldResponseNackPdu.serialize MinefieldResponseNackPdu.serializeHeap
  refine .bind (.super MinefieldFamilyPdu.shows (fun _ => rfl)) ?_
  refine .bind (.call EntityIdentifier.shows (fun o => by simp [MinefieldResponseNackPdu.members, MinefieldFamilyPdu.members, Pdu.members, PduSuperclass.members, attrOf])) ?_
  refine .bind (.call EntityIdentifier.shows (fun o => by simp [MinefieldResponseNackPdu.members, MinefieldFamilyPdu.members, Pdu.members, PduSuperclass.members, attrOf])) ?_
  refine .bind (.putInt (fun o => by simp [MinefieldResponseNackPdu.members, MinefieldFamilyPdu.members, Pdu.members, PduSuperclass.members, attrOf])) ?_
  refine .bind (.lenInts (fun o => by simp [MinefieldResponseNackPdu.members, MinefieldFamilyPdu.members, Pdu.members, PduSuperclass.members, attrOf])) ?_
  exact .eachRaises (fun o => by simp [MinefieldResponseNackPdu.members, MinefieldFamilyPdu.members, Pdu.members, PduSuperclass.members, attrOf])

theorem ActionResponseReliablePdu.inits (p pf : Int) (ex : List (String × Tree)) : Inits (fun self => ActionResponseReliablePdu.initHeap self)
      (([("protocolVersion", .sc .absent), ("exerciseID", .sc .absent), ("pduType", .sc (.int p)), ("protocolFamily", .sc (.int pf)), ("timestamp", .sc .absent), ("length", .sc .absent)] : List (String × Tree)) ++
      (([("pduStatus", .sc .absent), ("padding", .sc .absent)] : List (String × Tree)) ++
      (([("originatingEntityID", .sc .absent), ("receivingEntityID", .sc .absent)] : List (String × Tree)) ++
      (([("requestID", .sc .absent), ("responseStatus", .sc .absent), ("_datums", .sc .absent)] : List (String × Tree)) ++ ex))))
      (ActionResponseReliablePdu.members { pduType := p, protocolFamily := pf } ++ ex) := by
  unfold ActionResponseReliablePdu.initHeap
  refine .bind (SimulationManagementWithReliabilityFamilyPdu.inits p pf _) ?_
  refine .bind (.set' (by simp [attrOf_putAttr_isSome, attrOf, ActionResponseReliablePdu.members, SimulationManagementWithReliabilityFamilyPdu.members, Pdu.members, PduSuperclass.members])) ?_
  refine .bind (.set' (by simp [attrOf_putAttr_isSome, attrOf, ActionResponseReliablePdu.members, SimulationManagementWithReliabilityFamilyPdu.members, Pdu.members, PduSuperclass.members])) ?_
  exact .cast (.setNew' DatumSpecification.makesNew' (by simp [attrOf_putAttr_isSome, attrOf, ActionResponseReliablePdu.members, SimulationManagementWithReliabilityFamilyPdu.members, Pdu.members, PduSuperclass.members]))
    (by simp [putAttr, ActionResponseReliablePdu.members, SimulationManagementWithReliabilityFamilyPdu.members, Pdu.members, PduSuperclass.members, Tree.ints, Tree.objs, Tree.optInt, Tree.optObj, Tree.intOr])

theorem ActionResponseReliablePdu.makesNew : MakesNew ActionResponseReliablePdu.newHeap (.obj (ActionResponseReliablePdu.members ActionResponseReliablePdu.init)) :=
  .new (.cast (ActionResponseReliablePdu.inits 57 10 []) (List.append_nil _))

theorem ActionResponseReliablePdu.refines : Refines ActionResponseReliablePdu.members ActionResponseReliablePdu.parseInto ActionResponseReliablePdu.parseHeap := by
  unfold ActionResponseReliablePdu.parseInto ActionResponseReliablePdu.parseHeap
  refine .bind (.super SimulationManagementWithReliabilityFamilyPdu.refines (fun _ => rfl) (fun _ _ => rfl)) fun _ => ?_
  refine .bind .read fun _ => ?_
  refine .bind (.set' (fun o => by simp [ActionResponseReliablePdu.members, SimulationManagementWithReliabilityFamilyPdu.members, Pdu.members, PduSuperclass.members, attrOf]) (fun o => by simp [ActionResponseReliablePdu.members, SimulationManagementWithReliabilityFamilyPdu.members, Pdu.members, PduSuperclass.members, putAttr, Tree.optInt, Tree.intOr])) fun _ => ?_
  refine .bind .read fun _ => ?_
  refine .bind (.set' (fun o => by simp [ActionResponseReliablePdu.members, SimulationManagementWithReliabilityFamilyPdu.members, Pdu.members, PduSuperclass.members, attrOf]) (fun o => by simp [ActionResponseReliablePdu.members, SimulationManagementWithReliabilityFamilyPdu.members, Pdu.members, PduSuperclass.members, putAttr, Tree.optInt, Tree.intOr])) fun _ => ?_
  refine .bind (.call' DatumSpecification.refines (fun o => by simp [ActionResponseReliablePdu.members, SimulationManagementWithReliabilityFamilyPdu.members, Pdu.members, PduSuperclass.members, attrOf]) (fun o v => by simp [ActionResponseReliablePdu.members, SimulationManagementWithReliabilityFamilyPdu.members, Pdu.members, PduSuperclass.members, putAttr, Tree.optInt, Tree.intOr])) fun _ => ?_
  exact .pure

theorem ActionResponseReliablePdu.shows : Shows ActionResponseReliablePdu.members ActionResponseReliablePdu.serialize ActionResponseReliablePdu.serializeHeap := by
  unfold ActionResponseReliablePdu.serialize ActionResponseReliablePdu.serializeHeap
  refine .bind (.super SimulationManagementWithReliabilityFamilyPdu.shows (fun _ => rfl)) ?_
  refine .bind (.putInt (fun o => by simp [ActionResponseReliablePdu.members, SimulationManagementWithReliabilityFamilyPdu.members, Pdu.members, PduSuperclass.members, attrOf])) ?_
  refine .bind (.putInt (fun o => by simp [ActionResponseReliablePdu.members, SimulationManagementWithReliabilityFamilyPdu.members, Pdu.members, PduSuperclass.members, attrOf])) ?_
  exact .call DatumSpecification.shows (fun o => by simp [ActionResponseReliablePdu.members, SimulationManagementWithReliabilityFamilyPdu.members, Pdu.members, PduSuperclass.members, attrOf])

theorem IsPartOfPdu.inits (p pf : Int) (ex : List (String × Tree)) : Inits (fun self => IsPartOfPdu.initHeap self)
      (([("protocolVersion", .sc .absent), ("exerciseID", .sc .absent), ("pduType", .sc (.int p)), ("protocolFamily", .sc (.int pf)), ("timestamp", .sc .absent), ("length", .sc .absent)] : List (String × Tree)) ++
      (([("pduStatus", .sc .absent), ("padding", .sc .absent)] : List (String × Tree)) ++
      ([] ++
      (([("orginatingEntityID", .sc .absent), ("receivingEntityID", .sc .absent), ("relationship", .sc .absent), ("partLocation", .sc .absent), ("namedLocationID", .sc .absent), ("partEntityType", .sc .absent)] : List (String × Tree)) ++ ex))))
      (IsPartOfPdu.members { pduType := p, protocolFamily := pf } ++ ex) := by
  unfold IsPartOfPdu.initHeap
  refine .bind (EntityManagementFamilyPdu.inits p pf _) ?_
  refine .bind (.setOr' EntityIdentifier.makesNew (by simp [attrOf_putAttr_isSome, attrOf, IsPartOfPdu.members, EntityManagementFamilyPdu.members, Pdu.members, PduSuperclass.members])) ?_
  refine .bind (.setOr' EntityIdentifier.makesNew (by simp [attrOf_putAttr_isSome, attrOf, IsPartOfPdu.members, EntityManagementFamilyPdu.members, Pdu.members, PduSuperclass.members])) ?_
  refine .bind (.setOr' Relationship.makesNew (by simp [attrOf_putAttr_isSome, attrOf, IsPartOfPdu.members, EntityManagementFamilyPdu.members, Pdu.members, PduSuperclass.members])) ?_
  refine .bind (.setOr' Vector3Float.makesNew (by simp [attrOf_putAttr_isSome, attrOf, IsPartOfPdu.members, EntityManagementFamilyPdu.members, Pdu.members, PduSuperclass.members])) ?_
  refine .bind (.setOr' NamedLocationIdentification.makesNew (by simp [attrOf_putAttr_isSome, attrOf, IsPartOfPdu.members, EntityManagementFamilyPdu.members, Pdu.members, PduSuperclass.members])) ?_
  exact .cast (.setOr' EntityType.makesNew (by simp [attrOf_putAttr_isSome, attrOf, IsPartOfPdu.members, EntityManagementFamilyPdu.members, Pdu.members, PduSuperclass.members]))
    (by simp [putAttr, IsPartOfPdu.members, EntityManagementFamilyPdu.members, Pdu.members, PduSuperclass.members, Tree.ints, Tree.objs, Tree.optInt, Tree.optObj, Tree.intOr])

theorem IsPartOfPdu.makesNew : MakesNew IsPartOfPdu.newHeap (.obj (IsPartOfPdu.members IsPartOfPdu.init)) :=
  .new (.cast (IsPartOfPdu.inits 36 7 []) (List.append_nil _))

theorem IsPartOfPdu.refines : Refines IsPartOfPdu.members IsPartOfPdu.parseInto IsPartOfPdu.parseHeap := by
  unfold IsPartOfPdu.parseInto IsPartOfPdu.parseHeap
  refine .bind (.super EntityManagementFamilyPdu.refines (fun _ => rfl) (fun _ _ => rfl)) fun _ => ?_
  refine .bind (.call' EntityIdentifier.refines (fun o => by simp [IsPartOfPdu.members, EntityManagementFamilyPdu.members, Pdu.members, PduSuperclass.members, attrOf]) (fun o v => by simp [IsPartOfPdu.members, EntityManagementFamilyPdu.members, Pdu.members, PduSuperclass.members, putAttr, Tree.optInt, Tree.intOr])) fun _ => ?_
  refine .bind (.call' EntityIdentifier.refines (fun o => by simp [IsPartOfPdu.members, EntityManagementFamilyPdu.members, Pdu.members, PduSuperclass.members, attrOf]) (fun o v => by simp [IsPartOfPdu.members, EntityManagementFamilyPdu.members, Pdu.members, PduSuperclass.members, putAttr, Tree.optInt, Tree.intOr])) fun _ => ?_
  refine .bind (.call' Relationship.refines (fun o => by simp [IsPartOfPdu.members, EntityManagementFamilyPdu.members, Pdu.members, PduSuperclass.members, attrOf]) (fun o v => by simp [IsPartOfPdu.members, EntityManagementFamilyPdu.members, Pdu.members, PduSuperclass.members, putAttr, Tree.optInt, Tree.intOr])) fun _ => ?_
  refine .bind (.call' Vector3Float.refines (fun o => by simp [IsPartOfPdu.members, EntityManagementFamilyPdu.members, Pdu.members, PduSuperclass.members, attrOf]) (fun o v => by simp [IsPartOfPdu.members, EntityManagementFamilyPdu.members, Pdu.members, PduSuperclass.members, putAttr, Tree.optInt, Tree.intOr])) fun _ => ?_
  refine .bind (.call' NamedLocationIdentification.refines (fun o => by simp [IsPartOfPdu.members, EntityManagementFamilyPdu.members, Pdu.members, PduSuperclass.members, attrOf]) (fun o v => by simp [IsPartOfPdu.members, EntityManagementFamilyPdu.members, Pdu.members, PduSuperclass.members, putAttr, Tree.optInt, Tree.intOr])) fun _ => ?_
  refine .bind (.call' EntityType.refines (fun o => by simp [IsPartOfPdu.members, EntityManagementFamilyPdu.members, Pdu.members, PduSuperclass.members, attrOf]) (fun o v => by simp [IsPartOfPdu.members, EntityManagementFamilyPdu.members, Pdu.members, PduSuperclass.members, putAttr, Tree.optInt, Tree.intOr])) fun _ => ?_
  exact .pure

theorem IsPartOfPdu.shows : Shows IsPartOfPdu.members IsPartOfPdu.serialize IsPartOfPdu.serializeHeap := by
  unfold IsPartOfPdu.serialize IsPartOfPdu.serializeHeap
  refine .bind (.super EntityManagementFamilyPdu.shows (fun _ => rfl)) ?_
  refine .bind (.call EntityIdentifier.shows (fun o => by simp [IsPartOfPdu.members, EntityManagementFamilyPdu.members, Pdu.members, PduSuperclass.members, attrOf])) ?_
  refine .bind (.call EntityIdentifier.shows (fun o => by simp [IsPartOfPdu.members, EntityManagementFamilyPdu.members, Pdu.members, PduSuperclass.members, attrOf])) ?_
  refine .bind (.call Relationship.shows (fun o => by simp [IsPartOfPdu.members, EntityManagementFamilyPdu.members, Pdu.members, PduSuperclass.members, attrOf])) ?_
  refine .bind (.call Vector3Float.shows (fun o => by simp [IsPartOfPdu.members, EntityManagementFamilyPdu.members, Pdu.members, PduSuperclass.members, attrOf])) ?_
  refine .bind (.call NamedLocationIdentification.shows (fun o => by simp [IsPartOfPdu.members, EntityManagementFamilyPdu.members, Pdu.members, PduSuperclass.members, attrOf])) ?_
  exact .call EntityType.shows (fun o => by simp [IsPartOfPdu.members, EntityManagementFamilyPdu.members, Pdu.members, PduSuperclass.members, attrOf])

theorem AggregateStatePdu.inits (p pf : Int) (ex : List (String × Tree)) : Inits (fun self => AggregateStatePdu.initHeap self)
      (([("protocolVersion", .sc .absent), ("exerciseID", .sc .absent), ("pduType", .sc (.int p)), ("protocolFamily", .sc (.int pf)), ("timestamp", .sc .absent), ("length", .sc .absent)] : List (String × Tree)) ++
      (([("pduStatus", .sc .absent), ("padding", .sc .absent)] : List (String × Tree)) ++
      ([] ++
      (([("aggregateID", .sc .absent), ("forceID", .sc .absent), ("aggregateState", .sc .absent), ("aggregateType", .sc .absent), ("formation", .sc .absent), ("aggregateMarking", .sc .absent), ("dimensions", .sc .absent), ("orientation", .sc .absent), ("centerOfMass", .sc .absent), ("velocity", .sc .absent), ("aggregateIDs", .sc .absent), ("entityIDs", .sc .absent), ("silentAggregateSystems", .sc .absent), ("silentEntitySystems", .sc .absent), ("variableDatumRecords", .sc .absent)] : List (String × Tree)) ++ ex))))
      (AggregateStatePdu.members { pduType := p, protocolFamily := pf } ++ ex) := by
  unfold AggregateStatePdu.initHeap
  refine .bind (EntityManagementFamilyPdu.inits p pf _) ?_
  refine .bind (.setOr' AggregateIdentifier.makesNew (by simp [attrOf_putAttr_isSome, attrOf, AggregateStatePdu.members, EntityManagementFamilyPdu.members, Pdu.members, PduSuperclass.members])) ?_
  refine .bind (.set' (by simp [attrOf_putAttr_isSome, attrOf, AggregateStatePdu.members, EntityManagementFamilyPdu.members, Pdu.members, PduSuperclass.members])) ?_
  refine .bind (.set' (by simp [attrOf_putAttr_isSome, attrOf, AggregateStatePdu.members, EntityManagementFamilyPdu.members, Pdu.members, PduSuperclass.members])) ?_
  refine .bind (.setOr' AggregateType.makesNew (by simp [attrOf_putAttr_isSome, attrOf, AggregateStatePdu.members, EntityManagementFamilyPdu.members, Pdu.members, PduSuperclass.members])) ?_
  refine .bind (.set' (by simp [attrOf_putAttr_isSome, attrOf, AggregateStatePdu.members, EntityManagementFamilyPdu.members, Pdu.members, PduSuperclass.members])) ?_
  refine .bind (.setOr' AggregateMarking.makesNew (by simp [attrOf_putAttr_isSome, attrOf, AggregateStatePdu.members, EntityManagementFamilyPdu.members, Pdu.members, PduSuperclass.members])) ?_
  refine .bind (.setOr' Vector3Float.makesNew (by simp [attrOf_putAttr_isSome, attrOf, AggregateStatePdu.members, EntityManagementFamilyPdu.members, Pdu.members, PduSuperclass.members])) ?_
  refine .bind (.setOr' EulerAngles.makesNew (by simp [attrOf_putAttr_isSome, attrOf, AggregateStatePdu.members, EntityManagementFamilyPdu.members, Pdu.members, PduSuperclass.members])) ?_
  refine .bind (.setOr' Vector3Float.makesNew (by simp [attrOf_putAttr_isSome, attrOf, AggregateStatePdu.members, EntityManagementFamilyPdu.members, Pdu.members, PduSuperclass.members])) ?_
  refine .bind (.setOr' WorldCoordinates.makesNew (by simp [attrOf_putAttr_isSome, attrOf, AggregateStatePdu.members, EntityManagementFamilyPdu.members, Pdu.members, PduSuperclass.members])) ?_
  refine .bind (.setOr' .empty (by simp [attrOf_putAttr_isSome, attrOf, AggregateStatePdu.members, EntityManagementFamilyPdu.members, Pdu.members, PduSuperclass.members])) ?_
  refine .bind (.setOr' .empty (by simp [attrOf_putAttr_isSome, attrOf, AggregateStatePdu.members, EntityManagementFamilyPdu.members, Pdu.members, PduSuperclass.members])) ?_
  refine .bind (.setOr' .empty (by simp [attrOf_putAttr_isSome, attrOf, AggregateStatePdu.members, EntityManagementFamilyPdu.members, Pdu.members, PduSuperclass.members])) ?_
  refine .bind (.setOr' .empty (by simp [attrOf_putAttr_isSome, attrOf, AggregateStatePdu.members, EntityManagementFamilyPdu.members, Pdu.members, PduSuperclass.members])) ?_
  exact .cast (.setOr' .empty (by simp [attrOf_putAttr_isSome, attrOf, AggregateStatePdu.members, EntityManagementFamilyPdu.members, Pdu.members, PduSuperclass.members]))
    (by simp [putAttr, AggregateStatePdu.members, EntityManagementFamilyPdu.members, Pdu.members, PduSuperclass.members, Tree.ints, Tree.objs, Tree.optInt, Tree.optObj, Tree.intOr])

theorem AggregateStatePdu.makesNew : MakesNew AggregateStatePdu.newHeap (.obj (AggregateStatePdu.members AggregateStatePdu.init)) :=
  .new (.cast (AggregateStatePdu.inits 33 7 []) (List.append_nil _))

theorem AggregateStatePdu.refines : Refines AggregateStatePdu.members AggregateStatePdu.parseInto AggregateStatePdu.parseHeap := by
  unfold AggregateStatePdu.parseInto AggregateStatePdu.parseHeap
  refine .bind (.super EntityManagementFamilyPdu.refines (fun _ => rfl) (fun _ _ => rfl)) fun _ => ?_
  refine .bind (.call' AggregateIdentifier.refines (fun o => by simp [AggregateStatePdu.members, EntityManagementFamilyPdu.members, Pdu.members, PduSuperclass.members, attrOf]) (fun o v => by simp [AggregateStatePdu.members, EntityManagementFamilyPdu.members, Pdu.members, PduSuperclass.members, putAttr, Tree.optInt, Tree.intOr])) fun _ => ?_
  refine .bind .read fun _ => ?_
  refine .bind (.set' (fun o => by simp [AggregateStatePdu.members, EntityManagementFamilyPdu.members, Pdu.members, PduSuperclass.members, attrOf]) (fun o => by simp [AggregateStatePdu.members, EntityManagementFamilyPdu.members, Pdu.members, PduSuperclass.members, putAttr, Tree.optInt, Tree.intOr])) fun _ => ?_
  refine .bind .read fun _ => ?_
  refine .bind (.set' (fun o => by simp [AggregateStatePdu.members, EntityManagementFamilyPdu.members, Pdu.members, PduSuperclass.members, attrOf]) (fun o => by simp [AggregateStatePdu.members, EntityManagementFamilyPdu.members, Pdu.members, PduSuperclass.members, putAttr, Tree.optInt, Tree.intOr])) fun _ => ?_
  refine .bind (.call' AggregateType.refines (fun o => by simp [AggregateStatePdu.members, EntityManagementFamilyPdu.members, Pdu.members, PduSuperclass.members, attrOf]) (fun o v => by simp [AggregateStatePdu.members, EntityManagementFamilyPdu.members, Pdu.members, PduSuperclass.members, putAttr, Tree.optInt, Tree.intOr])) fun _ => ?_
  refine .bind .read fun _ => ?_
  refine .bind (.set' (fun o => by simp [AggregateStatePdu.members, EntityManagementFamilyPdu.members, Pdu.members, PduSuperclass.members, attrOf]) (fun o => by simp [AggregateStatePdu.members, EntityManagementFamilyPdu.members, Pdu.members, PduSuperclass.members, putAttr, Tree.optInt, Tree.intOr])) fun _ => ?_
  refine .bind (.call' AggregateMarking.refines (fun o => by simp [AggregateStatePdu.members, EntityManagementFamilyPdu.members, Pdu.members, PduSuperclass.members, attrOf]) (fun o v => by simp [AggregateStatePdu.members, EntityManagementFamilyPdu.members, Pdu.members, PduSuperclass.members, putAttr, Tree.optInt, Tree.intOr])) fun _ => ?_
  refine .bind (.call' Vector3Float.refines (fun o => by simp [AggregateStatePdu.members, EntityManagementFamilyPdu.members, Pdu.members, PduSuperclass.members, attrOf]) (fun o v => by simp [AggregateStatePdu.members, EntityManagementFamilyPdu.members, Pdu.members, PduSuperclass.members, putAttr, Tree.optInt, Tree.intOr])) fun _ => ?_
  refine .bind (.call' EulerAngles.refines (fun o => by simp [AggregateStatePdu.members, EntityManagementFamilyPdu.members, Pdu.members, PduSuperclass.members, attrOf]) (fun o v => by simp [AggregateStatePdu.members, EntityManagementFamilyPdu.members, Pdu.members, PduSuperclass.members, putAttr, Tree.optInt, Tree.intOr])) fun _ => ?_
  refine .bind (.call' Vector3Float.refines (fun o => by simp [AggregateStatePdu.members, EntityManagementFamilyPdu.members, Pdu.members, PduSuperclass.members, attrOf]) (fun o v => by simp [AggregateStatePdu.members, EntityManagementFamilyPdu.members, Pdu.members, PduSuperclass.members, putAttr, Tree.optInt, Tree.intOr])) fun _ => ?_
  refine .bind (.call' WorldCoordinates.refines (fun o => by simp [AggregateStatePdu.members, EntityManagementFamilyPdu.members, Pdu.members, PduSuperclass.members, attrOf]) (fun o v => by simp [AggregateStatePdu.members, EntityManagementFamilyPdu.members, Pdu.members, PduSuperclass.members, putAttr, Tree.optInt, Tree.intOr])) fun _ => ?_
  refine .bind .read fun _ => ?_
  refine .bind .read fun _ => ?_
  refine .bind .read fun _ => ?_
  refine .bind .read fun _ => ?_
  refine .bind (.objs AggregateIdentifier.makesNew AggregateIdentifier.refines (fun o => by simp [AggregateStatePdu.members, EntityManagementFamilyPdu.members, Pdu.members, PduSuperclass.members, attrOf]) (fun o v => by simp [AggregateStatePdu.members, EntityManagementFamilyPdu.members, Pdu.members, PduSuperclass.members, putAttr, Tree.optInt, Tree.intOr])) fun _ => ?_
  refine .bind (.objs EntityIdentifier.makesNew EntityIdentifier.refines (fun o => by simp [AggregateStatePdu.members, EntityManagementFamilyPdu.members, Pdu.members, PduSuperclass.members, attrOf]) (fun o v => by simp [AggregateStatePdu.members, EntityManagementFamilyPdu.members, Pdu.members, PduSuperclass.members, putAttr, Tree.optInt, Tree.intOr])) fun _ => ?_
  refine .bind (.objs SilentAggregateSystem.makesNew SilentAggregateSystem.refines (fun o => by simp [AggregateStatePdu.members, EntityManagementFamilyPdu.members, Pdu.members, PduSuperclass.members, attrOf]) (fun o v => by simp [AggregateStatePdu.members, EntityManagementFamilyPdu.members, Pdu.members, PduSuperclass.members, putAttr, Tree.optInt, Tree.intOr])) fun _ => ?_
  refine .bind (.objs SilentEntitySystem.makesNew SilentEntitySystem.refines (fun o => by simp [AggregateStatePdu.members, EntityManagementFamilyPdu.members, Pdu.members, PduSuperclass.members, attrOf]) (fun o v => by simp [AggregateStatePdu.members, EntityManagementFamilyPdu.members, Pdu.members, PduSuperclass.members, putAttr, Tree.optInt, Tree.intOr])) fun _ => ?_
  refine .bind .read fun _ => ?_
  refine .bind (.objs VariableDatum.makesNew VariableDatum.refines (fun o => by simp [AggregateStatePdu.members, EntityManagementFamilyPdu.members, Pdu.members, PduSuperclass.members, attrOf]) (fun o v => by simp [AggregateStatePdu.members, EntityManagementFamilyPdu.members, Pdu.members, PduSuperclass.members, putAttr, Tree.optInt, Tree.intOr])) fun _ => ?_
  exact .pure

theorem AggregateStatePdu.shows : Shows AggregateStatePdu.members AggregateStatePdu.serialize AggregateStatePdu.serializeHeap := by
  unfold AggregateStatePdu.serialize AggregateStatePdu.serializeHeap
  refine .bind (.super EntityManagementFamilyPdu.shows (fun _ => rfl)) ?_
  refine .bind (.call AggregateIdentifier.shows (fun o => by simp [AggregateStatePdu.members, EntityManagementFamilyPdu.members, Pdu.members, PduSuperclass.members, attrOf])) ?_
  refine .bind (.putInt (fun o => by simp [AggregateStatePdu.members, EntityManagementFamilyPdu.members, Pdu.members, PduSuperclass.members, attrOf])) ?_
  refine .bind (.putInt (fun o => by simp [AggregateStatePdu.members, EntityManagementFamilyPdu.members, Pdu.members, PduSuperclass.members, attrOf])) ?_
  refine .bind (.call AggregateType.shows (fun o => by simp [AggregateStatePdu.members, EntityManagementFamilyPdu.members, Pdu.members, PduSuperclass.members, attrOf])) ?_
  refine .bind (.putInt (fun o => by simp [AggregateStatePdu.members, EntityManagementFamilyPdu.members, Pdu.members, PduSuperclass.members, attrOf])) ?_
  refine .bind (.call AggregateMarking.shows (fun o => by simp [AggregateStatePdu.members, EntityManagementFamilyPdu.members, Pdu.members, PduSuperclass.members, attrOf])) ?_
  refine .bind (.call Vector3Float.shows (fun o => by simp [AggregateStatePdu.members, EntityManagementFamilyPdu.members, Pdu.members, PduSuperclass.members, attrOf])) ?_
  refine .bind (.call EulerAngles.shows (fun o => by simp [AggregateStatePdu.members, EntityManagementFamilyPdu.members, Pdu.members, PduSuperclass.members, attrOf])) ?_
  refine .bind (.call Vector3Float.shows (fun o => by simp [AggregateStatePdu.members, EntityManagementFamilyPdu.members, Pdu.members, PduSuperclass.members, attrOf])) ?_
  refine .bind (.call WorldCoordinates.shows (fun o => by simp [AggregateStatePdu.members, EntityManagementFamilyPdu.members, Pdu.members, PduSuperclass.members, attrOf])) ?_
  refine .bind (.lenObjs (ts := AggregateIdentifier.members) (fun o => by simp [AggregateStatePdu.members, EntityManagementFamilyPdu.members, Pdu.members, PduSuperclass.members, attrOf])) ?_
  refine .bind (.lenObjs (ts := EntityIdentifier.members) (fun o => by simp [AggregateStatePdu.members, EntityManagementFamilyPdu.members, Pdu.members, PduSuperclass.members, attrOf])) ?_
  refine .bind (.lenObjs (ts := SilentAggregateSystem.members) (fun o => by simp [AggregateStatePdu.members, EntityManagementFamilyPdu.members, Pdu.members, PduSuperclass.members, attrOf])) ?_
  refine .bind (.lenObjs (ts := SilentEntitySystem.members) (fun o => by simp [AggregateStatePdu.members, EntityManagementFamilyPdu.members, Pdu.members, PduSuperclass.members, attrOf])) ?_
  refine .bind (.eachObj AggregateIdentifier.shows (fun o => by simp [AggregateStatePdu.members, EntityManagementFamilyPdu.members, Pdu.members, PduSuperclass.members, attrOf])) ?_
  refine .bind (.eachObj EntityIdentifier.shows (fun o => by simp [AggregateStatePdu.members, EntityManagementFamilyPdu.members, Pdu.members, PduSuperclass.members, attrOf])) ?_
  refine .bind (.eachObj SilentAggregateSystem.shows (fun o => by simp [AggregateStatePdu.members, EntityManagementFamilyPdu.members, Pdu.members, PduSuperclass.members, attrOf])) ?_
  refine .bind (.eachObj SilentEntitySystem.shows (fun o => by simp [AggregateStatePdu.members, EntityManagementFamilyPdu.members, Pdu.members, PduSuperclass.members, attrOf])) ?_
  refine .bind (.lenObjs (ts := VariableDatum.members) (fun o => by simp [AggregateStatePdu.members, EntityManagementFamilyPdu.members, Pdu.members, PduSuperclass.members, attrOf])) ?_
  exact .eachObj VariableDatum.shows (fun o => by simp [AggregateStatePdu.members, EntityManagementFamilyPdu.members, Pdu.members, PduSuperclass.members, attrOf])

end Dis
