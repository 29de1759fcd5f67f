import Verif.Proof.HeapCtors2

/-!
# Constructors with arguments, part 3

Generated by `tools/genheapargs.py`.
-/

set_option linter.unusedVariables false
set_option linter.unusedSimpArgs false

namespace Dis

theorem CreateEntityPdu.builds (requestID : Val × Tree) :
    Builds (CreateEntityPdu.newHeap requestID.1) [requestID]
      (.obj (SimulationManagementFamilyPdu.members { pduType := 11, protocolFamily := 5 } ++ ([("requestID", requestID.2)] : List (String × Tree)))) := by
  have a : Fills (fun self => CreateEntityPdu.initHeap self requestID.1) [requestID]
      (([("protocolVersion", .sc .absent), ("exerciseID", .sc .absent), ("pduType", .sc (.int 11)), ("protocolFamily", .sc (.int 5)), ("timestamp", .sc .absent), ("length", .sc .absent)] : List (String × Tree)) ++
      (([("pduStatus", .sc .absent), ("padding", .sc .absent)] : List (String × Tree)) ++
      (([("originatingEntityID", .sc .absent), ("receivingEntityID", .sc .absent)] : List (String × Tree)) ++
      (([("requestID", .sc .absent)] : List (String × Tree)) ++ [])))) []
      (SimulationManagementFamilyPdu.members { pduType := 11, protocolFamily := 5 } ++ ([("requestID", requestID.2)] : List (String × Tree))) := by
    unfold CreateEntityPdu.initHeap
    refine .bind (.inits (SimulationManagementFamilyPdu.inits 11 5 _)) ?_
    exact .cast (.arg (p := requestID) (by simp [attrOf_putAttr_isSome, attrOf, CreateEntityPdu.members, SimulationManagementFamilyPdu.members, Pdu.members, PduSuperclass.members]))
      (by simp [putAttr, CreateEntityPdu.members, SimulationManagementFamilyPdu.members, Pdu.members, PduSuperclass.members, Tree.ints, Tree.objs, Tree.optInt, Tree.optObj, Tree.intOr, Tree.optFloat, Tree.noneOr, IntercomParametersValue.tree])
  exact .new a

theorem Ctor.CreateEntityPdu.lawful : Ctor.CreateEntityPdu.Lawful := by
  intro kv kt e ok
  refine .select [("requestID", .int 0)] (by simp) e ?_
  exact .cast (CreateEntityPdu.builds ((attrOf "requestID" kv).getD (.sc (.int 0)), (attrOf "requestID" kt).getD (.sc (.int 0)))) (by
    simp [Ctor.built, Ctor.CreateEntityPdu, HeapClass.CreateEntityPdu, InPlace.value, InPlace.CreateEntityPdu, Codec.CreateEntityPdu, CreateEntityPdu.init, Param.put, Tree.change, value_asIs, value_orFresh, value_copy, Tree.or_list, CreateEntityPdu.members, SimulationManagementFamilyPdu.members, Pdu.members, PduSuperclass.members, Tree.ints, Tree.objs, Tree.optInt, Tree.optObj, Tree.intOr, Tree.optFloat, Tree.noneOr, IntercomParametersValue.tree])

theorem IntercomSignalPdu.builds (entityID communicationsDeviceID encodingScheme tdlType sampleRate samples data : Val × Tree) :
    Builds (IntercomSignalPdu.newHeap entityID.1 communicationsDeviceID.1 encodingScheme.1 tdlType.1 sampleRate.1 samples.1 data.1) [entityID, communicationsDeviceID, encodingScheme, tdlType, sampleRate, samples, data]
      (.obj (RadioCommunicationsFamilyPdu.members { pduType := 31, protocolFamily := 4 } ++ ([("entityID", entityID.2.or (.obj (EntityIdentifier.members EntityIdentifier.init))),
      ("communicationsDeviceID", communicationsDeviceID.2), ("encodingScheme", encodingScheme.2),
      ("tdlType", tdlType.2), ("sampleRate", sampleRate.2), ("samples", samples.2),
      ("data", data.2.or (.list []))] : List (String × Tree)))) := by
  have a : Fills (fun self => IntercomSignalPdu.initHeap self entityID.1 communicationsDeviceID.1 encodingScheme.1 tdlType.1 sampleRate.1 samples.1 data.1) [entityID, communicationsDeviceID, encodingScheme, tdlType, sampleRate, samples, data]
      (([("protocolVersion", .sc .absent), ("exerciseID", .sc .absent), ("pduType", .sc (.int 31)), ("protocolFamily", .sc (.int 4)), ("timestamp", .sc .absent), ("length", .sc .absent)] : List (String × Tree)) ++
      (([("pduStatus", .sc .absent), ("padding", .sc .absent)] : List (String × Tree)) ++
      ([] ++
      (([("entityID", .sc .absent), ("communicationsDeviceID", .sc .absent), ("encodingScheme", .sc .absent), ("tdlType", .sc .absent), ("sampleRate", .sc .absent), ("samples", .sc .absent), ("data", .sc .absent)] : List (String × Tree)) ++ [])))) []
      (RadioCommunicationsFamilyPdu.members { pduType := 31, protocolFamily := 4 } ++ ([("entityID", entityID.2.or (.obj (EntityIdentifier.members EntityIdentifier.init))),
      ("communicationsDeviceID", communicationsDeviceID.2), ("encodingScheme", encodingScheme.2),
      ("tdlType", tdlType.2), ("sampleRate", sampleRate.2), ("samples", samples.2),
      ("data", data.2.or (.list []))] : List (String × Tree))) := by
    unfold IntercomSignalPdu.initHeap
    refine .bind (.inits (RadioCommunicationsFamilyPdu.inits 31 4 _)) ?_
    refine .bind (.or (p := entityID) EntityIdentifier.makesNew (by simp [attrOf_putAttr_isSome, attrOf, IntercomSignalPdu.members, RadioCommunicationsFamilyPdu.members, Pdu.members, PduSuperclass.members])) ?_
    refine .bind (.arg (p := communicationsDeviceID) (by simp [attrOf_putAttr_isSome, attrOf, IntercomSignalPdu.members, RadioCommunicationsFamilyPdu.members, Pdu.members, PduSuperclass.members])) ?_
    refine .bind (.arg (p := encodingScheme) (by simp [attrOf_putAttr_isSome, attrOf, IntercomSignalPdu.members, RadioCommunicationsFamilyPdu.members, Pdu.members, PduSuperclass.members])) ?_
    refine .bind (.arg (p := tdlType) (by simp [attrOf_putAttr_isSome, attrOf, IntercomSignalPdu.members, RadioCommunicationsFamilyPdu.members, Pdu.members, PduSuperclass.members])) ?_
    refine .bind (.arg (p := sampleRate) (by simp [attrOf_putAttr_isSome, attrOf, IntercomSignalPdu.members, RadioCommunicationsFamilyPdu.members, Pdu.members, PduSuperclass.members])) ?_
    refine .bind (.arg (p := samples) (by simp [attrOf_putAttr_isSome, attrOf, IntercomSignalPdu.members, RadioCommunicationsFamilyPdu.members, Pdu.members, PduSuperclass.members])) ?_
    exact .cast (.or (p := data) .empty (by simp [attrOf_putAttr_isSome, attrOf, IntercomSignalPdu.members, RadioCommunicationsFamilyPdu.members, Pdu.members, PduSuperclass.members]))
      (by simp [putAttr, IntercomSignalPdu.members, RadioCommunicationsFamilyPdu.members, Pdu.members, PduSuperclass.members, Tree.ints, Tree.objs, Tree.optInt, Tree.optObj, Tree.intOr, Tree.optFloat, Tree.noneOr, IntercomParametersValue.tree])
  exact .new a

theorem Ctor.IntercomSignalPdu.lawful : Ctor.IntercomSignalPdu.Lawful := by
  intro kv kt e ok
  refine .select [("entityID", .none), ("communicationsDeviceID", .int 0), ("encodingScheme", .int 0), ("tdlType", .int 0), ("sampleRate", .int 0), ("samples", .int 0), ("data", .none)] (by simp) e ?_
  exact .cast (IntercomSignalPdu.builds ((attrOf "entityID" kv).getD (.sc (.none)), (attrOf "entityID" kt).getD (.sc (.none))) ((attrOf "communicationsDeviceID" kv).getD (.sc (.int 0)), (attrOf "communicationsDeviceID" kt).getD (.sc (.int 0))) ((attrOf "encodingScheme" kv).getD (.sc (.int 0)), (attrOf "encodingScheme" kt).getD (.sc (.int 0))) ((attrOf "tdlType" kv).getD (.sc (.int 0)), (attrOf "tdlType" kt).getD (.sc (.int 0))) ((attrOf "sampleRate" kv).getD (.sc (.int 0)), (attrOf "sampleRate" kt).getD (.sc (.int 0))) ((attrOf "samples" kv).getD (.sc (.int 0)), (attrOf "samples" kt).getD (.sc (.int 0))) ((attrOf "data" kv).getD (.sc (.none)), (attrOf "data" kt).getD (.sc (.none)))) (by
    simp [Ctor.built, Ctor.IntercomSignalPdu, HeapClass.IntercomSignalPdu, InPlace.value, InPlace.IntercomSignalPdu, Codec.IntercomSignalPdu, IntercomSignalPdu.init, Param.put, Tree.change, value_asIs, value_orFresh, value_copy, Tree.or_list, IntercomSignalPdu.members, RadioCommunicationsFamilyPdu.members, Pdu.members, PduSuperclass.members, Tree.ints, Tree.objs, Tree.optInt, Tree.optObj, Tree.intOr, Tree.optFloat, Tree.noneOr, IntercomParametersValue.tree])

theorem RemoveEntityPdu.builds (requestID : Val × Tree) :
    Builds (RemoveEntityPdu.newHeap requestID.1) [requestID]
      (.obj (SimulationManagementFamilyPdu.members { pduType := 12, protocolFamily := 5 } ++ ([("requestID", requestID.2)] : List (String × Tree)))) := by
  have a : Fills (fun self => RemoveEntityPdu.initHeap self requestID.1) [requestID]
      (([("protocolVersion", .sc .absent), ("exerciseID", .sc .absent), ("pduType", .sc (.int 12)), ("protocolFamily", .sc (.int 5)), ("timestamp", .sc .absent), ("length", .sc .absent)] : List (String × Tree)) ++
      (([("pduStatus", .sc .absent), ("padding", .sc .absent)] : List (String × Tree)) ++
      (([("originatingEntityID", .sc .absent), ("receivingEntityID", .sc .absent)] : List (String × Tree)) ++
      (([("requestID", .sc .absent)] : List (String × Tree)) ++ [])))) []
      (SimulationManagementFamilyPdu.members { pduType := 12, protocolFamily := 5 } ++ ([("requestID", requestID.2)] : List (String × Tree))) := by
    unfold RemoveEntityPdu.initHeap
    refine .bind (.inits (SimulationManagementFamilyPdu.inits 12 5 _)) ?_
    exact .cast (.arg (p := requestID) (by simp [attrOf_putAttr_isSome, attrOf, RemoveEntityPdu.members, SimulationManagementFamilyPdu.members, Pdu.members, PduSuperclass.members]))
      (by simp [putAttr, RemoveEntityPdu.members, SimulationManagementFamilyPdu.members, Pdu.members, PduSuperclass.members, Tree.ints, Tree.objs, Tree.optInt, Tree.optObj, Tree.intOr, Tree.optFloat, Tree.noneOr, IntercomParametersValue.tree])
  exact .new a

theorem Ctor.RemoveEntityPdu.lawful : Ctor.RemoveEntityPdu.Lawful := by
  intro kv kt e ok
  refine .select [("requestID", .int 0)] (by simp) e ?_
  exact .cast (RemoveEntityPdu.builds ((attrOf "requestID" kv).getD (.sc (.int 0)), (attrOf "requestID" kt).getD (.sc (.int 0)))) (by
    simp [Ctor.built, Ctor.RemoveEntityPdu, HeapClass.RemoveEntityPdu, InPlace.value, InPlace.RemoveEntityPdu, Codec.RemoveEntityPdu, RemoveEntityPdu.init, Param.put, Tree.change, value_asIs, value_orFresh, value_copy, Tree.or_list, RemoveEntityPdu.members, SimulationManagementFamilyPdu.members, Pdu.members, PduSuperclass.members, Tree.ints, Tree.objs, Tree.optInt, Tree.optObj, Tree.intOr, Tree.optFloat, Tree.noneOr, IntercomParametersValue.tree])

theorem ResupplyReceivedPdu.builds (receivingEntityID supplyingEntityID supplies : Val × Tree) :
    Builds (ResupplyReceivedPdu.newHeap receivingEntityID.1 supplyingEntityID.1 supplies.1) [receivingEntityID, supplyingEntityID, supplies]
      (.obj (LogisticsFamilyPdu.members { pduType := 7, protocolFamily := 3 } ++ ([("receivingEntityID", receivingEntityID.2.or (.obj (EntityIdentifier.members EntityIdentifier.init))),
      ("supplyingEntityID", supplyingEntityID.2.or (.obj (EntityIdentifier.members EntityIdentifier.init))),
      ("padding1", .sc (.int 0)), ("padding2", .sc (.int 0)), ("supplies", supplies.2.or (.list []))] : List (String × Tree)))) := by
  have a : Fills (fun self => ResupplyReceivedPdu.initHeap self receivingEntityID.1 supplyingEntityID.1 supplies.1) [receivingEntityID, supplyingEntityID, supplies]
      (([("protocolVersion", .sc .absent), ("exerciseID", .sc .absent), ("pduType", .sc (.int 7)), ("protocolFamily", .sc (.int 3)), ("timestamp", .sc .absent), ("length", .sc .absent)] : List (String × Tree)) ++
      (([("pduStatus", .sc .absent), ("padding", .sc .absent)] : List (String × Tree)) ++
      ([] ++
      (([("receivingEntityID", .sc .absent), ("supplyingEntityID", .sc .absent), ("padding1", .sc .absent), ("padding2", .sc .absent), ("supplies", .sc .absent)] : List (String × Tree)) ++ [])))) []
      (LogisticsFamilyPdu.members { pduType := 7, protocolFamily := 3 } ++ ([("receivingEntityID", receivingEntityID.2.or (.obj (EntityIdentifier.members EntityIdentifier.init))),
      ("supplyingEntityID", supplyingEntityID.2.or (.obj (EntityIdentifier.members EntityIdentifier.init))),
      ("padding1", .sc (.int 0)), ("padding2", .sc (.int 0)), ("supplies", supplies.2.or (.list []))] : List (String × Tree))) := by
    unfold ResupplyReceivedPdu.initHeap
    refine .bind (.inits (LogisticsFamilyPdu.inits 7 3 _)) ?_
    refine .bind (.or (p := receivingEntityID) EntityIdentifier.makesNew (by simp [attrOf_putAttr_isSome, attrOf, ResupplyReceivedPdu.members, LogisticsFamilyPdu.members, Pdu.members, PduSuperclass.members])) ?_
    refine .bind (.or (p := supplyingEntityID) EntityIdentifier.makesNew (by simp [attrOf_putAttr_isSome, attrOf, ResupplyReceivedPdu.members, LogisticsFamilyPdu.members, Pdu.members, PduSuperclass.members])) ?_
    refine .bind (.inits (.set' (by simp [attrOf_putAttr_isSome, attrOf, ResupplyReceivedPdu.members, LogisticsFamilyPdu.members, Pdu.members, PduSuperclass.members]))) ?_
    refine .bind (.inits (.set' (by simp [attrOf_putAttr_isSome, attrOf, ResupplyReceivedPdu.members, LogisticsFamilyPdu.members, Pdu.members, PduSuperclass.members]))) ?_
    exact .cast (.or (p := supplies) .empty (by simp [attrOf_putAttr_isSome, attrOf, ResupplyReceivedPdu.members, LogisticsFamilyPdu.members, Pdu.members, PduSuperclass.members]))
      (by simp [putAttr, ResupplyReceivedPdu.members, LogisticsFamilyPdu.members, Pdu.members, PduSuperclass.members, Tree.ints, Tree.objs, Tree.optInt, Tree.optObj, Tree.intOr, Tree.optFloat, Tree.noneOr, IntercomParametersValue.tree])
  exact .new a

theorem Ctor.ResupplyReceivedPdu.lawful : Ctor.ResupplyReceivedPdu.Lawful := by
  intro kv kt e ok
  refine .select [("receivingEntityID", .none), ("supplyingEntityID", .none), ("supplies", .none)] (by simp) e ?_
  exact .cast (ResupplyReceivedPdu.builds ((attrOf "receivingEntityID" kv).getD (.sc (.none)), (attrOf "receivingEntityID" kt).getD (.sc (.none))) ((attrOf "supplyingEntityID" kv).getD (.sc (.none)), (attrOf "supplyingEntityID" kt).getD (.sc (.none))) ((attrOf "supplies" kv).getD (.sc (.none)), (attrOf "supplies" kt).getD (.sc (.none)))) (by
    simp [Ctor.built, Ctor.ResupplyReceivedPdu, HeapClass.ResupplyReceivedPdu, InPlace.value, InPlace.ResupplyReceivedPdu, Codec.ResupplyReceivedPdu, ResupplyReceivedPdu.init, Param.put, Tree.change, value_asIs, value_orFresh, value_copy, Tree.or_list, ResupplyReceivedPdu.members, LogisticsFamilyPdu.members, Pdu.members, PduSuperclass.members, Tree.ints, Tree.objs, Tree.optInt, Tree.optObj, Tree.intOr, Tree.optFloat, Tree.noneOr, IntercomParametersValue.tree])

theorem CollisionElasticPdu.builds (issuingEntityID collidingEntityID collisionEventID contactVelocity mass locationOfImpact collisionIntermediateResultXX collisionIntermediateResultXY collisionIntermediateResultXZ collisionIntermediateResultYY collisionIntermediateResultYZ collisionIntermediateResultZZ unitSurfaceNormal coefficientOfRestitution : Val × Tree) :
    Builds (CollisionElasticPdu.newHeap issuingEntityID.1 collidingEntityID.1 collisionEventID.1 contactVelocity.1 mass.1 locationOfImpact.1 collisionIntermediateResultXX.1 collisionIntermediateResultXY.1 collisionIntermediateResultXZ.1 collisionIntermediateResultYY.1 collisionIntermediateResultYZ.1 collisionIntermediateResultZZ.1 unitSurfaceNormal.1 coefficientOfRestitution.1) [issuingEntityID, collidingEntityID, collisionEventID, contactVelocity, mass, locationOfImpact, collisionIntermediateResultXX, collisionIntermediateResultXY, collisionIntermediateResultXZ, collisionIntermediateResultYY, collisionIntermediateResultYZ, collisionIntermediateResultZZ, unitSurfaceNormal, coefficientOfRestitution]
      (.obj (EntityInformationFamilyPdu.members { pduType := 66, protocolFamily := 1 } ++ ([("issuingEntityID", issuingEntityID.2.or (.obj (EntityIdentifier.members EntityIdentifier.init))),
      ("collidingEntityID", collidingEntityID.2.or (.obj (EntityIdentifier.members EntityIdentifier.init))),
      ("collisionEventID", collisionEventID.2.or (.obj (EventIdentifier.members EventIdentifier.init))),
      ("pad", .sc (.int 0)),
      ("contactVelocity", contactVelocity.2.or (.obj (Vector3Float.members Vector3Float.init))),
      ("mass", mass.2),
      ("locationOfImpact", locationOfImpact.2.or (.obj (Vector3Float.members Vector3Float.init))),
      ("collisionIntermediateResultXX", collisionIntermediateResultXX.2),
      ("collisionIntermediateResultXY", collisionIntermediateResultXY.2),
      ("collisionIntermediateResultXZ", collisionIntermediateResultXZ.2),
      ("collisionIntermediateResultYY", collisionIntermediateResultYY.2),
      ("collisionIntermediateResultYZ", collisionIntermediateResultYZ.2),
      ("collisionIntermediateResultZZ", collisionIntermediateResultZZ.2),
      ("unitSurfaceNormal", unitSurfaceNormal.2.or (.obj (Vector3Float.members Vector3Float.init))),
      ("coefficientOfRestitution", coefficientOfRestitution.2)] : List (String × Tree)))) := by
  have a : Fills (fun self => CollisionElasticPdu.initHeap self issuingEntityID.1 collidingEntityID.1 collisionEventID.1 contactVelocity.1 mass.1 locationOfImpact.1 collisionIntermediateResultXX.1 collisionIntermediateResultXY.1 collisionIntermediateResultXZ.1 collisionIntermediateResultYY.1 collisionIntermediateResultYZ.1 collisionIntermediateResultZZ.1 unitSurfaceNormal.1 coefficientOfRestitution.1) [issuingEntityID, collidingEntityID, collisionEventID, contactVelocity, mass, locationOfImpact, collisionIntermediateResultXX, collisionIntermediateResultXY, collisionIntermediateResultXZ, collisionIntermediateResultYY, collisionIntermediateResultYZ, collisionIntermediateResultZZ, unitSurfaceNormal, coefficientOfRestitution]
      (([("protocolVersion", .sc .absent), ("exerciseID", .sc .absent), ("pduType", .sc (.int 66)), ("protocolFamily", .sc (.int 1)), ("timestamp", .sc .absent), ("length", .sc .absent)] : List (String × Tree)) ++
      (([("pduStatus", .sc .absent), ("padding", .sc .absent)] : List (String × Tree)) ++
      ([] ++
      (([("issuingEntityID", .sc .absent), ("collidingEntityID", .sc .absent), ("collisionEventID", .sc .absent), ("pad", .sc .absent), ("contactVelocity", .sc .absent), ("mass", .sc .absent), ("locationOfImpact", .sc .absent), ("collisionIntermediateResultXX", .sc .absent), ("collisionIntermediateResultXY", .sc .absent), ("collisionIntermediateResultXZ", .sc .absent), ("collisionIntermediateResultYY", .sc .absent), ("collisionIntermediateResultYZ", .sc .absent), ("collisionIntermediateResultZZ", .sc .absent), ("unitSurfaceNormal", .sc .absent), ("coefficientOfRestitution", .sc .absent)] : List (String × Tree)) ++ [])))) []
      (EntityInformationFamilyPdu.members { pduType := 66, protocolFamily := 1 } ++ ([("issuingEntityID", issuingEntityID.2.or (.obj (EntityIdentifier.members EntityIdentifier.init))),
      ("collidingEntityID", collidingEntityID.2.or (.obj (EntityIdentifier.members EntityIdentifier.init))),
      ("collisionEventID", collisionEventID.2.or (.obj (EventIdentifier.members EventIdentifier.init))),
      ("pad", .sc (.int 0)),
      ("contactVelocity", contactVelocity.2.or (.obj (Vector3Float.members Vector3Float.init))),
      ("mass", mass.2),
      ("locationOfImpact", locationOfImpact.2.or (.obj (Vector3Float.members Vector3Float.init))),
      ("collisionIntermediateResultXX", collisionIntermediateResultXX.2),
      ("collisionIntermediateResultXY", collisionIntermediateResultXY.2),
      ("collisionIntermediateResultXZ", collisionIntermediateResultXZ.2),
      ("collisionIntermediateResultYY", collisionIntermediateResultYY.2),
      ("collisionIntermediateResultYZ", collisionIntermediateResultYZ.2),
      ("collisionIntermediateResultZZ", collisionIntermediateResultZZ.2),
      ("unitSurfaceNormal", unitSurfaceNormal.2.or (.obj (Vector3Float.members Vector3Float.init))),
      ("coefficientOfRestitution", coefficientOfRestitution.2)] : List (String × Tree))) := by
    unfold CollisionElasticPdu.initHeap
    refine .bind (.inits (EntityInformationFamilyPdu.inits 66 1 _)) ?_
    refine .bind (.or (p := issuingEntityID) EntityIdentifier.makesNew (by simp [attrOf_putAttr_isSome, attrOf, CollisionElasticPdu.members, EntityInformationFamilyPdu.members, Pdu.members, PduSuperclass.members])) ?_
    refine .bind (.or (p := collidingEntityID) EntityIdentifier.makesNew (by simp [attrOf_putAttr_isSome, attrOf, CollisionElasticPdu.members, EntityInformationFamilyPdu.members, Pdu.members, PduSuperclass.members])) ?_
    refine .bind (.or (p := collisionEventID) EventIdentifier.makesNew (by simp [attrOf_putAttr_isSome, attrOf, CollisionElasticPdu.members, EntityInformationFamilyPdu.members, Pdu.members, PduSuperclass.members])) ?_
    refine .bind (.inits (.set' (by simp [attrOf_putAttr_isSome, attrOf, CollisionElasticPdu.members, EntityInformationFamilyPdu.members, Pdu.members, PduSuperclass.members]))) ?_
    refine .bind (.or (p := contactVelocity) Vector3Float.makesNew (by simp [attrOf_putAttr_isSome, attrOf, CollisionElasticPdu.members, EntityInformationFamilyPdu.members, Pdu.members, PduSuperclass.members])) ?_
    refine .bind (.arg (p := mass) (by simp [attrOf_putAttr_isSome, attrOf, CollisionElasticPdu.members, EntityInformationFamilyPdu.members, Pdu.members, PduSuperclass.members])) ?_
    refine .bind (.or (p := locationOfImpact) Vector3Float.makesNew (by simp [attrOf_putAttr_isSome, attrOf, CollisionElasticPdu.members, EntityInformationFamilyPdu.members, Pdu.members, PduSuperclass.members])) ?_
    refine .bind (.arg (p := collisionIntermediateResultXX) (by simp [attrOf_putAttr_isSome, attrOf, CollisionElasticPdu.members, EntityInformationFamilyPdu.members, Pdu.members, PduSuperclass.members])) ?_
    refine .bind (.arg (p := collisionIntermediateResultXY) (by simp [attrOf_putAttr_isSome, attrOf, CollisionElasticPdu.members, EntityInformationFamilyPdu.members, Pdu.members, PduSuperclass.members])) ?_
    refine .bind (.arg (p := collisionIntermediateResultXZ) (by simp [attrOf_putAttr_isSome, attrOf, CollisionElasticPdu.members, EntityInformationFamilyPdu.members, Pdu.members, PduSuperclass.members])) ?_
    refine .bind (.arg (p := collisionIntermediateResultYY) (by simp [attrOf_putAttr_isSome, attrOf, CollisionElasticPdu.members, EntityInformationFamilyPdu.members, Pdu.members, PduSuperclass.members])) ?_
    refine .bind (.arg (p := collisionIntermediateResultYZ) (by simp [attrOf_putAttr_isSome, attrOf, CollisionElasticPdu.members, EntityInformationFamilyPdu.members, Pdu.members, PduSuperclass.members])) ?_
    refine .bind (.arg (p := collisionIntermediateResultZZ) (by simp [attrOf_putAttr_isSome, attrOf, CollisionElasticPdu.members, EntityInformationFamilyPdu.members, Pdu.members, PduSuperclass.members])) ?_
    refine .bind (.or (p := unitSurfaceNormal) Vector3Float.makesNew (by simp [attrOf_putAttr_isSome, attrOf, CollisionElasticPdu.members, EntityInformationFamilyPdu.members, Pdu.members, PduSuperclass.members])) ?_
    exact .cast (.arg (p := coefficientOfRestitution) (by simp [attrOf_putAttr_isSome, attrOf, CollisionElasticPdu.members, EntityInformationFamilyPdu.members, Pdu.members, PduSuperclass.members]))
      (by simp [putAttr, CollisionElasticPdu.members, EntityInformationFamilyPdu.members, Pdu.members, PduSuperclass.members, Tree.ints, Tree.objs, Tree.optInt, Tree.optObj, Tree.intOr, Tree.optFloat, Tree.noneOr, IntercomParametersValue.tree])
  exact .new a

theorem Ctor.CollisionElasticPdu.lawful : Ctor.CollisionElasticPdu.Lawful := by
  intro kv kt e ok
  refine .select [("issuingEntityID", .none), ("collidingEntityID", .none), ("collisionEventID", .none), ("contactVelocity", .none), ("mass", .float 0x0000000000000000), ("locationOfImpact", .none), ("collisionIntermediateResultXX", .float 0x0000000000000000), ("collisionIntermediateResultXY", .float 0x0000000000000000), ("collisionIntermediateResultXZ", .float 0x0000000000000000), ("collisionIntermediateResultYY", .float 0x0000000000000000), ("collisionIntermediateResultYZ", .float 0x0000000000000000), ("collisionIntermediateResultZZ", .float 0x0000000000000000), ("unitSurfaceNormal", .none), ("coefficientOfRestitution", .float 0x0000000000000000)] (by simp) e ?_
  exact .cast (CollisionElasticPdu.builds ((attrOf "issuingEntityID" kv).getD (.sc (.none)), (attrOf "issuingEntityID" kt).getD (.sc (.none))) ((attrOf "collidingEntityID" kv).getD (.sc (.none)), (attrOf "collidingEntityID" kt).getD (.sc (.none))) ((attrOf "collisionEventID" kv).getD (.sc (.none)), (attrOf "collisionEventID" kt).getD (.sc (.none))) ((attrOf "contactVelocity" kv).getD (.sc (.none)), (attrOf "contactVelocity" kt).getD (.sc (.none))) ((attrOf "mass" kv).getD (.sc (.float 0x0000000000000000)), (attrOf "mass" kt).getD (.sc (.float 0x0000000000000000))) ((attrOf "locationOfImpact" kv).getD (.sc (.none)), (attrOf "locationOfImpact" kt).getD (.sc (.none))) ((attrOf "collisionIntermediateResultXX" kv).getD (.sc (.float 0x0000000000000000)), (attrOf "collisionIntermediateResultXX" kt).getD (.sc (.float 0x0000000000000000))) ((attrOf "collisionIntermediateResultXY" kv).getD (.sc (.float 0x0000000000000000)), (attrOf "collisionIntermediateResultXY" kt).getD (.sc (.float 0x0000000000000000))) ((attrOf "collisionIntermediateResultXZ" kv).getD (.sc (.float 0x0000000000000000)), (attrOf "collisionIntermediateResultXZ" kt).getD (.sc (.float 0x0000000000000000))) ((attrOf "collisionIntermediateResultYY" kv).getD (.sc (.float 0x0000000000000000)), (attrOf "collisionIntermediateResultYY" kt).getD (.sc (.float 0x0000000000000000))) ((attrOf "collisionIntermediateResultYZ" kv).getD (.sc (.float 0x0000000000000000)), (attrOf "collisionIntermediateResultYZ" kt).getD (.sc (.float 0x0000000000000000))) ((attrOf "collisionIntermediateResultZZ" kv).getD (.sc (.float 0x0000000000000000)), (attrOf "collisionIntermediateResultZZ" kt).getD (.sc (.float 0x0000000000000000))) ((attrOf "unitSurfaceNormal" kv).getD (.sc (.none)), (attrOf "unitSurfaceNormal" kt).getD (.sc (.none))) ((attrOf "coefficientOfRestitution" kv).getD (.sc (.float 0x0000000000000000)), (attrOf "coefficientOfRestitution" kt).getD (.sc (.float 0x0000000000000000)))) (by
    simp [Ctor.built, Ctor.CollisionElasticPdu, HeapClass.CollisionElasticPdu, InPlace.value, InPlace.CollisionElasticPdu, Codec.CollisionElasticPdu, CollisionElasticPdu.init, Param.put, Tree.change, value_asIs, value_orFresh, value_copy, Tree.or_list, CollisionElasticPdu.members, EntityInformationFamilyPdu.members, Pdu.members, PduSuperclass.members, Tree.ints, Tree.objs, Tree.optInt, Tree.optObj, Tree.intOr, Tree.optFloat, Tree.noneOr, IntercomParametersValue.tree])

theorem ActionRequestPdu.builds (requestID actionID fixedDatumRecords variableDatumRecords : Val × Tree) :
    Builds (ActionRequestPdu.newHeap requestID.1 actionID.1 fixedDatumRecords.1 variableDatumRecords.1) [requestID, actionID, fixedDatumRecords, variableDatumRecords]
      (.obj (SimulationManagementFamilyPdu.members { pduType := 16, protocolFamily := 5 } ++ ([("requestID", requestID.2), ("actionID", actionID.2),
      ("_datums", .obj [("fixedDatumRecords", (fixedDatumRecords.2.or (.list [])).or (.list [])), ("variableDatumRecords", (variableDatumRecords.2.or (.list [])).or (.list []))])] : List (String × Tree)))) := by
  have a : Fills (fun self => ActionRequestPdu.initHeap self requestID.1 actionID.1 fixedDatumRecords.1 variableDatumRecords.1) [requestID, actionID, fixedDatumRecords, variableDatumRecords]
      (([("protocolVersion", .sc .absent), ("exerciseID", .sc .absent), ("pduType", .sc (.int 16)), ("protocolFamily", .sc (.int 5)), ("timestamp", .sc .absent), ("length", .sc .absent)] : List (String × Tree)) ++
      (([("pduStatus", .sc .absent), ("padding", .sc .absent)] : List (String × Tree)) ++
      (([("originatingEntityID", .sc .absent), ("receivingEntityID", .sc .absent)] : List (String × Tree)) ++
      (([("requestID", .sc .absent), ("actionID", .sc .absent), ("_datums", .sc .absent)] : List (String × Tree)) ++ [])))) []
      (SimulationManagementFamilyPdu.members { pduType := 16, protocolFamily := 5 } ++ ([("requestID", requestID.2), ("actionID", actionID.2),
      ("_datums", .obj [("fixedDatumRecords", (fixedDatumRecords.2.or (.list [])).or (.list [])), ("variableDatumRecords", (variableDatumRecords.2.or (.list [])).or (.list []))])] : List (String × Tree))) := by
    unfold ActionRequestPdu.initHeap
    refine .bind (.inits (SimulationManagementFamilyPdu.inits 16 5 _)) ?_
    refine .bind (.arg (p := requestID) (by simp [attrOf_putAttr_isSome, attrOf, ActionRequestPdu.members, SimulationManagementFamilyPdu.members, Pdu.members, PduSuperclass.members])) ?_
    refine .bind (.arg (p := actionID) (by simp [attrOf_putAttr_isSome, attrOf, ActionRequestPdu.members, SimulationManagementFamilyPdu.members, Pdu.members, PduSuperclass.members])) ?_
    exact .cast (.lists (p := fixedDatumRecords) (q := variableDatumRecords) (k := fun a b => DatumSpecification.newHeap a b)
      (t := fun t u => .obj [("fixedDatumRecords", t.or (.list [])), ("variableDatumRecords", u.or (.list []))]) DatumSpecification.builds (by simp [attrOf_putAttr_isSome, attrOf, ActionRequestPdu.members, SimulationManagementFamilyPdu.members, Pdu.members, PduSuperclass.members]))
      (by simp [putAttr, ActionRequestPdu.members, SimulationManagementFamilyPdu.members, Pdu.members, PduSuperclass.members, Tree.ints, Tree.objs, Tree.optInt, Tree.optObj, Tree.intOr, Tree.optFloat, Tree.noneOr, IntercomParametersValue.tree])
  exact .new a

theorem Ctor.ActionRequestPdu.lawful : Ctor.ActionRequestPdu.Lawful := by
  intro kv kt e ok
  refine .select [("requestID", .int 0), ("actionID", .int 0), ("fixedDatumRecords", .none), ("variableDatumRecords", .none)] (by simp) e ?_
  exact .cast (ActionRequestPdu.builds ((attrOf "requestID" kv).getD (.sc (.int 0)), (attrOf "requestID" kt).getD (.sc (.int 0))) ((attrOf "actionID" kv).getD (.sc (.int 0)), (attrOf "actionID" kt).getD (.sc (.int 0))) ((attrOf "fixedDatumRecords" kv).getD (.sc (.none)), (attrOf "fixedDatumRecords" kt).getD (.sc (.none))) ((attrOf "variableDatumRecords" kv).getD (.sc (.none)), (attrOf "variableDatumRecords" kt).getD (.sc (.none)))) (by
    simp [Ctor.built, Ctor.ActionRequestPdu, HeapClass.ActionRequestPdu, InPlace.value, InPlace.ActionRequestPdu, Codec.ActionRequestPdu, ActionRequestPdu.init, Param.put, Tree.change, value_asIs, value_orFresh, value_copy, Tree.or_list, ActionRequestPdu.members, SimulationManagementFamilyPdu.members, Pdu.members, PduSuperclass.members, DatumSpecification.members, DatumSpecification.init, Tree.ints, Tree.objs, Tree.optInt, Tree.optObj, Tree.intOr, Tree.optFloat, Tree.noneOr, IntercomParametersValue.tree])

theorem AcknowledgePdu.builds (acknowledgeFlag responseFlag requestID : Val × Tree) :
    Builds (AcknowledgePdu.newHeap acknowledgeFlag.1 responseFlag.1 requestID.1) [acknowledgeFlag, responseFlag, requestID]
      (.obj (SimulationManagementFamilyPdu.members { pduType := 15, protocolFamily := 5 } ++ ([("acknowledgeFlag", acknowledgeFlag.2), ("responseFlag", responseFlag.2), ("requestID", requestID.2)] : List (String × Tree)))) := by
  have a : Fills (fun self => AcknowledgePdu.initHeap self acknowledgeFlag.1 responseFlag.1 requestID.1) [acknowledgeFlag, responseFlag, requestID]
      (([("protocolVersion", .sc .absent), ("exerciseID", .sc .absent), ("pduType", .sc (.int 15)), ("protocolFamily", .sc (.int 5)), ("timestamp", .sc .absent), ("length", .sc .absent)] : List (String × Tree)) ++
      (([("pduStatus", .sc .absent), ("padding", .sc .absent)] : List (String × Tree)) ++
      (([("originatingEntityID", .sc .absent), ("receivingEntityID", .sc .absent)] : List (String × Tree)) ++
      (([("acknowledgeFlag", .sc .absent), ("responseFlag", .sc .absent), ("requestID", .sc .absent)] : List (String × Tree)) ++ [])))) []
      (SimulationManagementFamilyPdu.members { pduType := 15, protocolFamily := 5 } ++ ([("acknowledgeFlag", acknowledgeFlag.2), ("responseFlag", responseFlag.2), ("requestID", requestID.2)] : List (String × Tree))) := by
    unfold AcknowledgePdu.initHeap
    refine .bind (.inits (SimulationManagementFamilyPdu.inits 15 5 _)) ?_
    refine .bind (.arg (p := acknowledgeFlag) (by simp [attrOf_putAttr_isSome, attrOf, AcknowledgePdu.members, SimulationManagementFamilyPdu.members, Pdu.members, PduSuperclass.members])) ?_
    refine .bind (.arg (p := responseFlag) (by simp [attrOf_putAttr_isSome, attrOf, AcknowledgePdu.members, SimulationManagementFamilyPdu.members, Pdu.members, PduSuperclass.members])) ?_
    exact .cast (.arg (p := requestID) (by simp [attrOf_putAttr_isSome, attrOf, AcknowledgePdu.members, SimulationManagementFamilyPdu.members, Pdu.members, PduSuperclass.members]))
      (by simp [putAttr, AcknowledgePdu.members, SimulationManagementFamilyPdu.members, Pdu.members, PduSuperclass.members, Tree.ints, Tree.objs, Tree.optInt, Tree.optObj, Tree.intOr, Tree.optFloat, Tree.noneOr, IntercomParametersValue.tree])
  exact .new a

theorem Ctor.AcknowledgePdu.lawful : Ctor.AcknowledgePdu.Lawful := by
  intro kv kt e ok
  refine .select [("acknowledgeFlag", .int 0), ("responseFlag", .int 0), ("requestID", .int 0)] (by simp) e ?_
  exact .cast (AcknowledgePdu.builds ((attrOf "acknowledgeFlag" kv).getD (.sc (.int 0)), (attrOf "acknowledgeFlag" kt).getD (.sc (.int 0))) ((attrOf "responseFlag" kv).getD (.sc (.int 0)), (attrOf "responseFlag" kt).getD (.sc (.int 0))) ((attrOf "requestID" kv).getD (.sc (.int 0)), (attrOf "requestID" kt).getD (.sc (.int 0)))) (by
    simp [Ctor.built, Ctor.AcknowledgePdu, HeapClass.AcknowledgePdu, InPlace.value, InPlace.AcknowledgePdu, Codec.AcknowledgePdu, AcknowledgePdu.init, Param.put, Tree.change, value_asIs, value_orFresh, value_copy, Tree.or_list, AcknowledgePdu.members, SimulationManagementFamilyPdu.members, Pdu.members, PduSuperclass.members, Tree.ints, Tree.objs, Tree.optInt, Tree.optObj, Tree.intOr, Tree.optFloat, Tree.noneOr, IntercomParametersValue.tree])

theorem ActionRequestReliablePdu.builds (requiredReliabilityService requestID actionID fixedDatumRecords variableDatumRecords : Val × Tree) :
    Builds (ActionRequestReliablePdu.newHeap requiredReliabilityService.1 requestID.1 actionID.1 fixedDatumRecords.1 variableDatumRecords.1) [requiredReliabilityService, requestID, actionID, fixedDatumRecords, variableDatumRecords]
      (.obj (SimulationManagementWithReliabilityFamilyPdu.members { pduType := 56, protocolFamily := 10 } ++ ([("requiredReliabilityService", requiredReliabilityService.2), ("pad1", .sc (.int 0)),
      ("pad2", .sc (.int 0)), ("requestID", requestID.2), ("actionID", actionID.2), ("pad3", .sc (.int 0)),
      ("_datums", .obj [("fixedDatumRecords", (fixedDatumRecords.2.or (.list [])).or (.list [])), ("variableDatumRecords", (variableDatumRecords.2.or (.list [])).or (.list []))])] : List (String × Tree)))) := by
  have a : Fills (fun self => ActionRequestReliablePdu.initHeap self requiredReliabilityService.1 requestID.1 actionID.1 fixedDatumRecords.1 variableDatumRecords.1) [requiredReliabilityService, requestID, actionID, fixedDatumRecords, variableDatumRecords]
      (([("protocolVersion", .sc .absent), ("exerciseID", .sc .absent), ("pduType", .sc (.int 56)), ("protocolFamily", .sc (.int 10)), ("timestamp", .sc .absent), ("length", .sc .absent)] : List (String × Tree)) ++
      (([("pduStatus", .sc .absent), ("padding", .sc .absent)] : List (String × Tree)) ++
      (([("originatingEntityID", .sc .absent), ("receivingEntityID", .sc .absent)] : List (String × Tree)) ++
      (([("requiredReliabilityService", .sc .absent), ("pad1", .sc .absent), ("pad2", .sc .absent), ("requestID", .sc .absent), ("actionID", .sc .absent), ("pad3", .sc .absent), ("_datums", .sc .absent)] : List (String × Tree)) ++ [])))) []
      (SimulationManagementWithReliabilityFamilyPdu.members { pduType := 56, protocolFamily := 10 } ++ ([("requiredReliabilityService", requiredReliabilityService.2), ("pad1", .sc (.int 0)),
      ("pad2", .sc (.int 0)), ("requestID", requestID.2), ("actionID", actionID.2), ("pad3", .sc (.int 0)),
      ("_datums", .obj [("fixedDatumRecords", (fixedDatumRecords.2.or (.list [])).or (.list [])), ("variableDatumRecords", (variableDatumRecords.2.or (.list [])).or (.list []))])] : List (String × Tree))) := by
    unfold ActionRequestReliablePdu.initHeap
    refine .bind (.inits (SimulationManagementWithReliabilityFamilyPdu.inits 56 10 _)) ?_
    refine .bind (.arg (p := requiredReliabilityService) (by simp [attrOf_putAttr_isSome, attrOf, ActionRequestReliablePdu.members, SimulationManagementWithReliabilityFamilyPdu.members, Pdu.members, PduSuperclass.members])) ?_
    refine .bind (.inits (.set' (by simp [attrOf_putAttr_isSome, attrOf, ActionRequestReliablePdu.members, SimulationManagementWithReliabilityFamilyPdu.members, Pdu.members, PduSuperclass.members]))) ?_
    refine .bind (.inits (.set' (by simp [attrOf_putAttr_isSome, attrOf, ActionRequestReliablePdu.members, SimulationManagementWithReliabilityFamilyPdu.members, Pdu.members, PduSuperclass.members]))) ?_
    refine .bind (.arg (p := requestID) (by simp [attrOf_putAttr_isSome, attrOf, ActionRequestReliablePdu.members, SimulationManagementWithReliabilityFamilyPdu.members, Pdu.members, PduSuperclass.members])) ?_
    refine .bind (.arg (p := actionID) (by simp [attrOf_putAttr_isSome, attrOf, ActionRequestReliablePdu.members, SimulationManagementWithReliabilityFamilyPdu.members, Pdu.members, PduSuperclass.members])) ?_
    refine .bind (.inits (.set' (by simp [attrOf_putAttr_isSome, attrOf, ActionRequestReliablePdu.members, SimulationManagementWithReliabilityFamilyPdu.members, Pdu.members, PduSuperclass.members]))) ?_
    exact .cast (.lists (p := fixedDatumRecords) (q := variableDatumRecords) (k := fun a b => DatumSpecification.newHeap a b)
      (t := fun t u => .obj [("fixedDatumRecords", t.or (.list [])), ("variableDatumRecords", u.or (.list []))]) DatumSpecification.builds (by simp [attrOf_putAttr_isSome, attrOf, ActionRequestReliablePdu.members, SimulationManagementWithReliabilityFamilyPdu.members, Pdu.members, PduSuperclass.members]))
      (by simp [putAttr, ActionRequestReliablePdu.members, SimulationManagementWithReliabilityFamilyPdu.members, Pdu.members, PduSuperclass.members, Tree.ints, Tree.objs, Tree.optInt, Tree.optObj, Tree.intOr, Tree.optFloat, Tree.noneOr, IntercomParametersValue.tree])
  exact .new a

theorem Ctor.ActionRequestReliablePdu.lawful : Ctor.ActionRequestReliablePdu.Lawful := by
  intro kv kt e ok
  refine .select [("requiredReliabilityService", .int 0), ("requestID", .int 0), ("actionID", .int 0), ("fixedDatumRecords", .none), ("variableDatumRecords", .none)] (by simp) e ?_
  exact .cast (ActionRequestReliablePdu.builds ((attrOf "requiredReliabilityService" kv).getD (.sc (.int 0)), (attrOf "requiredReliabilityService" kt).getD (.sc (.int 0))) ((attrOf "requestID" kv).getD (.sc (.int 0)), (attrOf "requestID" kt).getD (.sc (.int 0))) ((attrOf "actionID" kv).getD (.sc (.int 0)), (attrOf "actionID" kt).getD (.sc (.int 0))) ((attrOf "fixedDatumRecords" kv).getD (.sc (.none)), (attrOf "fixedDatumRecords" kt).getD (.sc (.none))) ((attrOf "variableDatumRecords" kv).getD (.sc (.none)), (attrOf "variableDatumRecords" kt).getD (.sc (.none)))) (by
    simp [Ctor.built, Ctor.ActionRequestReliablePdu, HeapClass.ActionRequestReliablePdu, InPlace.value, InPlace.ActionRequestReliablePdu, Codec.ActionRequestReliablePdu, ActionRequestReliablePdu.init, Param.put, Tree.change, value_asIs, value_orFresh, value_copy, Tree.or_list, ActionRequestReliablePdu.members, SimulationManagementWithReliabilityFamilyPdu.members, Pdu.members, PduSuperclass.members, DatumSpecification.members, DatumSpecification.init, Tree.ints, Tree.objs, Tree.optInt, Tree.optObj, Tree.intOr, Tree.optFloat, Tree.noneOr, IntercomParametersValue.tree])

theorem DesignatorPdu.builds (designatingEntityID codeName designatedEntityID designatorCode designatorPower designatorWavelength designatorSpotWrtDesignated designatorSpotLocation deadReckoningAlgorithm entityLinearAcceleration : Val × Tree) :
    Builds (DesignatorPdu.newHeap designatingEntityID.1 codeName.1 designatedEntityID.1 designatorCode.1 designatorPower.1 designatorWavelength.1 designatorSpotWrtDesignated.1 designatorSpotLocation.1 deadReckoningAlgorithm.1 entityLinearAcceleration.1) [designatingEntityID, codeName, designatedEntityID, designatorCode, designatorPower, designatorWavelength, designatorSpotWrtDesignated, designatorSpotLocation, deadReckoningAlgorithm, entityLinearAcceleration]
      (.obj (DistributedEmissionsFamilyPdu.members { pduType := 24, protocolFamily := 6 } ++ ([("designatingEntityID", designatingEntityID.2.or (.obj (EntityIdentifier.members EntityIdentifier.init))),
      ("codeName", codeName.2),
      ("designatedEntityID", designatedEntityID.2.or (.obj (EntityIdentifier.members EntityIdentifier.init))),
      ("designatorCode", designatorCode.2), ("designatorPower", designatorPower.2),
      ("designatorWavelength", designatorWavelength.2),
      ("designatorSpotWrtDesignated", designatorSpotWrtDesignated.2.or (.obj (Vector3Float.members Vector3Float.init))),
      ("designatorSpotLocation", designatorSpotLocation.2.or (.obj (WorldCoordinates.members WorldCoordinates.init))),
      ("deadReckoningAlgorithm", deadReckoningAlgorithm.2), ("padding1", .sc (.int 0)),
      ("padding2", .sc (.int 0)),
      ("entityLinearAcceleration", entityLinearAcceleration.2.or (.obj (Vector3Float.members Vector3Float.init)))] : List (String × Tree)))) := by
  have a : Fills (fun self => DesignatorPdu.initHeap self designatingEntityID.1 codeName.1 designatedEntityID.1 designatorCode.1 designatorPower.1 designatorWavelength.1 designatorSpotWrtDesignated.1 designatorSpotLocation.1 deadReckoningAlgorithm.1 entityLinearAcceleration.1) [designatingEntityID, codeName, designatedEntityID, designatorCode, designatorPower, designatorWavelength, designatorSpotWrtDesignated, designatorSpotLocation, deadReckoningAlgorithm, entityLinearAcceleration]
      (([("protocolVersion", .sc .absent), ("exerciseID", .sc .absent), ("pduType", .sc (.int 24)), ("protocolFamily", .sc (.int 6)), ("timestamp", .sc .absent), ("length", .sc .absent)] : List (String × Tree)) ++
      (([("pduStatus", .sc .absent), ("padding", .sc .absent)] : List (String × Tree)) ++
      ([] ++
      (([("designatingEntityID", .sc .absent), ("codeName", .sc .absent), ("designatedEntityID", .sc .absent), ("designatorCode", .sc .absent), ("designatorPower", .sc .absent), ("designatorWavelength", .sc .absent), ("designatorSpotWrtDesignated", .sc .absent), ("designatorSpotLocation", .sc .absent), ("deadReckoningAlgorithm", .sc .absent), ("padding1", .sc .absent), ("padding2", .sc .absent), ("entityLinearAcceleration", .sc .absent)] : List (String × Tree)) ++ [])))) []
      (DistributedEmissionsFamilyPdu.members { pduType := 24, protocolFamily := 6 } ++ ([("designatingEntityID", designatingEntityID.2.or (.obj (EntityIdentifier.members EntityIdentifier.init))),
      ("codeName", codeName.2),
      ("designatedEntityID", designatedEntityID.2.or (.obj (EntityIdentifier.members EntityIdentifier.init))),
      ("designatorCode", designatorCode.2), ("designatorPower", designatorPower.2),
      ("designatorWavelength", designatorWavelength.2),
      ("designatorSpotWrtDesignated", designatorSpotWrtDesignated.2.or (.obj (Vector3Float.members Vector3Float.init))),
      ("designatorSpotLocation", designatorSpotLocation.2.or (.obj (WorldCoordinates.members WorldCoordinates.init))),
      ("deadReckoningAlgorithm", deadReckoningAlgorithm.2), ("padding1", .sc (.int 0)),
      ("padding2", .sc (.int 0)),
      ("entityLinearAcceleration", entityLinearAcceleration.2.or (.obj (Vector3Float.members Vector3Float.init)))] : List (String × Tree))) := by
    unfold DesignatorPdu.initHeap
    refine .bind (.inits (DistributedEmissionsFamilyPdu.inits 24 6 _)) ?_
    refine .bind (.or (p := designatingEntityID) EntityIdentifier.makesNew (by simp [attrOf_putAttr_isSome, attrOf, DesignatorPdu.members, DistributedEmissionsFamilyPdu.members, Pdu.members, PduSuperclass.members])) ?_
    refine .bind (.arg (p := codeName) (by simp [attrOf_putAttr_isSome, attrOf, DesignatorPdu.members, DistributedEmissionsFamilyPdu.members, Pdu.members, PduSuperclass.members])) ?_
    refine .bind (.or (p := designatedEntityID) EntityIdentifier.makesNew (by simp [attrOf_putAttr_isSome, attrOf, DesignatorPdu.members, DistributedEmissionsFamilyPdu.members, Pdu.members, PduSuperclass.members])) ?_
    refine .bind (.arg (p := designatorCode) (by simp [attrOf_putAttr_isSome, attrOf, DesignatorPdu.members, DistributedEmissionsFamilyPdu.members, Pdu.members, PduSuperclass.members])) ?_
    refine .bind (.arg (p := designatorPower) (by simp [attrOf_putAttr_isSome, attrOf, DesignatorPdu.members, DistributedEmissionsFamilyPdu.members, Pdu.members, PduSuperclass.members])) ?_
    refine .bind (.arg (p := designatorWavelength) (by simp [attrOf_putAttr_isSome, attrOf, DesignatorPdu.members, DistributedEmissionsFamilyPdu.members, Pdu.members, PduSuperclass.members])) ?_
    refine .bind (.or (p := designatorSpotWrtDesignated) Vector3Float.makesNew (by simp [attrOf_putAttr_isSome, attrOf, DesignatorPdu.members, DistributedEmissionsFamilyPdu.members, Pdu.members, PduSuperclass.members])) ?_
    refine .bind (.or (p := designatorSpotLocation) WorldCoordinates.makesNew (by simp [attrOf_putAttr_isSome, attrOf, DesignatorPdu.members, DistributedEmissionsFamilyPdu.members, Pdu.members, PduSuperclass.members])) ?_
    refine .bind (.arg (p := deadReckoningAlgorithm) (by simp [attrOf_putAttr_isSome, attrOf, DesignatorPdu.members, DistributedEmissionsFamilyPdu.members, Pdu.members, PduSuperclass.members])) ?_
    refine .bind (.inits (.set' (by simp [attrOf_putAttr_isSome, attrOf, DesignatorPdu.members, DistributedEmissionsFamilyPdu.members, Pdu.members, PduSuperclass.members]))) ?_
    refine .bind (.inits (.set' (by simp [attrOf_putAttr_isSome, attrOf, DesignatorPdu.members, DistributedEmissionsFamilyPdu.members, Pdu.members, PduSuperclass.members]))) ?_
    exact .cast (.or (p := entityLinearAcceleration) Vector3Float.makesNew (by simp [attrOf_putAttr_isSome, attrOf, DesignatorPdu.members, DistributedEmissionsFamilyPdu.members, Pdu.members, PduSuperclass.members]))
      (by simp [putAttr, DesignatorPdu.members, DistributedEmissionsFamilyPdu.members, Pdu.members, PduSuperclass.members, Tree.ints, Tree.objs, Tree.optInt, Tree.optObj, Tree.intOr, Tree.optFloat, Tree.noneOr, IntercomParametersValue.tree])
  exact .new a

theorem Ctor.DesignatorPdu.lawful : Ctor.DesignatorPdu.Lawful := by
  intro kv kt e ok
  refine .select [("designatingEntityID", .none), ("codeName", .int 0), ("designatedEntityID", .none), ("designatorCode", .int 0), ("designatorPower", .float 0x0000000000000000), ("designatorWavelength", .float 0x0000000000000000), ("designatorSpotWrtDesignated", .none), ("designatorSpotLocation", .none), ("deadReckoningAlgorithm", .int 0), ("entityLinearAcceleration", .none)] (by simp) e ?_
  exact .cast (DesignatorPdu.builds ((attrOf "designatingEntityID" kv).getD (.sc (.none)), (attrOf "designatingEntityID" kt).getD (.sc (.none))) ((attrOf "codeName" kv).getD (.sc (.int 0)), (attrOf "codeName" kt).getD (.sc (.int 0))) ((attrOf "designatedEntityID" kv).getD (.sc (.none)), (attrOf "designatedEntityID" kt).getD (.sc (.none))) ((attrOf "designatorCode" kv).getD (.sc (.int 0)), (attrOf "designatorCode" kt).getD (.sc (.int 0))) ((attrOf "designatorPower" kv).getD (.sc (.float 0x0000000000000000)), (attrOf "designatorPower" kt).getD (.sc (.float 0x0000000000000000))) ((attrOf "designatorWavelength" kv).getD (.sc (.float 0x0000000000000000)), (attrOf "designatorWavelength" kt).getD (.sc (.float 0x0000000000000000))) ((attrOf "designatorSpotWrtDesignated" kv).getD (.sc (.none)), (attrOf "designatorSpotWrtDesignated" kt).getD (.sc (.none))) ((attrOf "designatorSpotLocation" kv).getD (.sc (.none)), (attrOf "designatorSpotLocation" kt).getD (.sc (.none))) ((attrOf "deadReckoningAlgorithm" kv).getD (.sc (.int 0)), (attrOf "deadReckoningAlgorithm" kt).getD (.sc (.int 0))) ((attrOf "entityLinearAcceleration" kv).getD (.sc (.none)), (attrOf "entityLinearAcceleration" kt).getD (.sc (.none)))) (by
    simp [Ctor.built, Ctor.DesignatorPdu, HeapClass.DesignatorPdu, InPlace.value, InPlace.DesignatorPdu, Codec.DesignatorPdu, DesignatorPdu.init, Param.put, Tree.change, value_asIs, value_orFresh, value_copy, Tree.or_list, DesignatorPdu.members, DistributedEmissionsFamilyPdu.members, Pdu.members, PduSuperclass.members, Tree.ints, Tree.objs, Tree.optInt, Tree.optObj, Tree.intOr, Tree.optFloat, Tree.noneOr, IntercomParametersValue.tree])

theorem StopFreezePdu.builds (realWorldTime reason frozenBehavior requestID : Val × Tree) :
    Builds (StopFreezePdu.newHeap realWorldTime.1 reason.1 frozenBehavior.1 requestID.1) [realWorldTime, reason, frozenBehavior, requestID]
      (.obj (SimulationManagementFamilyPdu.members { pduType := 14, protocolFamily := 5 } ++ ([("realWorldTime", realWorldTime.2.or (.obj (ClockTime.members ClockTime.init))), ("reason", reason.2),
      ("frozenBehavior", frozenBehavior.2), ("padding1", .sc (.int 0)), ("requestID", requestID.2)] : List (String × Tree)))) := by
  have a : Fills (fun self => StopFreezePdu.initHeap self realWorldTime.1 reason.1 frozenBehavior.1 requestID.1) [realWorldTime, reason, frozenBehavior, requestID]
      (([("protocolVersion", .sc .absent), ("exerciseID", .sc .absent), ("pduType", .sc (.int 14)), ("protocolFamily", .sc (.int 5)), ("timestamp", .sc .absent), ("length", .sc .absent)] : List (String × Tree)) ++
      (([("pduStatus", .sc .absent), ("padding", .sc .absent)] : List (String × Tree)) ++
      (([("originatingEntityID", .sc .absent), ("receivingEntityID", .sc .absent)] : List (String × Tree)) ++
      (([("realWorldTime", .sc .absent), ("reason", .sc .absent), ("frozenBehavior", .sc .absent), ("padding1", .sc .absent), ("requestID", .sc .absent)] : List (String × Tree)) ++ [])))) []
      (SimulationManagementFamilyPdu.members { pduType := 14, protocolFamily := 5 } ++ ([("realWorldTime", realWorldTime.2.or (.obj (ClockTime.members ClockTime.init))), ("reason", reason.2),
      ("frozenBehavior", frozenBehavior.2), ("padding1", .sc (.int 0)), ("requestID", requestID.2)] : List (String × Tree))) := by
    unfold StopFreezePdu.initHeap
    refine .bind (.inits (SimulationManagementFamilyPdu.inits 14 5 _)) ?_
    refine .bind (.or (p := realWorldTime) ClockTime.makesNew (by simp [attrOf_putAttr_isSome, attrOf, StopFreezePdu.members, SimulationManagementFamilyPdu.members, Pdu.members, PduSuperclass.members])) ?_
    refine .bind (.arg (p := reason) (by simp [attrOf_putAttr_isSome, attrOf, StopFreezePdu.members, SimulationManagementFamilyPdu.members, Pdu.members, PduSuperclass.members])) ?_
    refine .bind (.arg (p := frozenBehavior) (by simp [attrOf_putAttr_isSome, attrOf, StopFreezePdu.members, SimulationManagementFamilyPdu.members, Pdu.members, PduSuperclass.members])) ?_
    refine .bind (.inits (.set' (by simp [attrOf_putAttr_isSome, attrOf, StopFreezePdu.members, SimulationManagementFamilyPdu.members, Pdu.members, PduSuperclass.members]))) ?_
    exact .cast (.arg (p := requestID) (by simp [attrOf_putAttr_isSome, attrOf, StopFreezePdu.members, SimulationManagementFamilyPdu.members, Pdu.members, PduSuperclass.members]))
      (by simp [putAttr, StopFreezePdu.members, SimulationManagementFamilyPdu.members, Pdu.members, PduSuperclass.members, Tree.ints, Tree.objs, Tree.optInt, Tree.optObj, Tree.intOr, Tree.optFloat, Tree.noneOr, IntercomParametersValue.tree])
  exact .new a

theorem Ctor.StopFreezePdu.lawful : Ctor.StopFreezePdu.Lawful := by
  intro kv kt e ok
  refine .select [("realWorldTime", .none), ("reason", .int 0), ("frozenBehavior", .int 0), ("requestID", .int 0)] (by simp) e ?_
  exact .cast (StopFreezePdu.builds ((attrOf "realWorldTime" kv).getD (.sc (.none)), (attrOf "realWorldTime" kt).getD (.sc (.none))) ((attrOf "reason" kv).getD (.sc (.int 0)), (attrOf "reason" kt).getD (.sc (.int 0))) ((attrOf "frozenBehavior" kv).getD (.sc (.int 0)), (attrOf "frozenBehavior" kt).getD (.sc (.int 0))) ((attrOf "requestID" kv).getD (.sc (.int 0)), (attrOf "requestID" kt).getD (.sc (.int 0)))) (by
    simp [Ctor.built, Ctor.StopFreezePdu, HeapClass.StopFreezePdu, InPlace.value, InPlace.StopFreezePdu, Codec.StopFreezePdu, StopFreezePdu.init, Param.put, Tree.change, value_asIs, value_orFresh, value_copy, Tree.or_list, StopFreezePdu.members, SimulationManagementFamilyPdu.members, Pdu.members, PduSuperclass.members, Tree.ints, Tree.objs, Tree.optInt, Tree.optObj, Tree.intOr, Tree.optFloat, Tree.noneOr, IntercomParametersValue.tree])

theorem EntityStatePdu.builds (entityID forceId entityType alternativeEntityType entityLinearVelocity entityLocation entityOrientation entityAppearance deadReckoningParameters marking capabilities variableParameters : Val × Tree) :
    Builds (EntityStatePdu.newHeap entityID.1 forceId.1 entityType.1 alternativeEntityType.1 entityLinearVelocity.1 entityLocation.1 entityOrientation.1 entityAppearance.1 deadReckoningParameters.1 marking.1 capabilities.1 variableParameters.1) [entityID, forceId, entityType, alternativeEntityType, entityLinearVelocity, entityLocation, entityOrientation, entityAppearance, deadReckoningParameters, marking, capabilities, variableParameters]
      (.obj (EntityInformationFamilyPdu.members { pduType := 1, protocolFamily := 1 } ++ ([("entityID", entityID.2.or (.obj (EntityIdentifier.members EntityIdentifier.init))),
      ("forceId", forceId.2), ("entityType", entityType.2.or (.obj (EntityType.members EntityType.init))),
      ("alternativeEntityType", alternativeEntityType.2.or (.obj (EntityType.members EntityType.init))),
      ("entityLinearVelocity", entityLinearVelocity.2.or (.obj (Vector3Float.members Vector3Float.init))),
      ("entityLocation", entityLocation.2.or (.obj (WorldCoordinates.members WorldCoordinates.init))),
      ("entityOrientation", entityOrientation.2.or (.obj (EulerAngles.members EulerAngles.init))),
      ("entityAppearance", entityAppearance.2),
      ("deadReckoningParameters", deadReckoningParameters.2.or (.obj (DeadReckoningParameters.members DeadReckoningParameters.init))),
      ("marking", marking.2.or (.obj (EntityMarking.members EntityMarking.init))),
      ("capabilities", capabilities.2), ("variableParameters", variableParameters.2.or (.list []))] : List (String × Tree)))) := by
  have a : Fills (fun self => EntityStatePdu.initHeap self entityID.1 forceId.1 entityType.1 alternativeEntityType.1 entityLinearVelocity.1 entityLocation.1 entityOrientation.1 entityAppearance.1 deadReckoningParameters.1 marking.1 capabilities.1 variableParameters.1) [entityID, forceId, entityType, alternativeEntityType, entityLinearVelocity, entityLocation, entityOrientation, entityAppearance, deadReckoningParameters, marking, capabilities, variableParameters]
      (([("protocolVersion", .sc .absent), ("exerciseID", .sc .absent), ("pduType", .sc (.int 1)), ("protocolFamily", .sc (.int 1)), ("timestamp", .sc .absent), ("length", .sc .absent)] : List (String × Tree)) ++
      (([("pduStatus", .sc .absent), ("padding", .sc .absent)] : List (String × Tree)) ++
      ([] ++
      (([("entityID", .sc .absent), ("forceId", .sc .absent), ("entityType", .sc .absent), ("alternativeEntityType", .sc .absent), ("entityLinearVelocity", .sc .absent), ("entityLocation", .sc .absent), ("entityOrientation", .sc .absent), ("entityAppearance", .sc .absent), ("deadReckoningParameters", .sc .absent), ("marking", .sc .absent), ("capabilities", .sc .absent), ("variableParameters", .sc .absent)] : List (String × Tree)) ++ [])))) []
      (EntityInformationFamilyPdu.members { pduType := 1, protocolFamily := 1 } ++ ([("entityID", entityID.2.or (.obj (EntityIdentifier.members EntityIdentifier.init))),
      ("forceId", forceId.2), ("entityType", entityType.2.or (.obj (EntityType.members EntityType.init))),
      ("alternativeEntityType", alternativeEntityType.2.or (.obj (EntityType.members EntityType.init))),
      ("entityLinearVelocity", entityLinearVelocity.2.or (.obj (Vector3Float.members Vector3Float.init))),
      ("entityLocation", entityLocation.2.or (.obj (WorldCoordinates.members WorldCoordinates.init))),
      ("entityOrientation", entityOrientation.2.or (.obj (EulerAngles.members EulerAngles.init))),
      ("entityAppearance", entityAppearance.2),
      ("deadReckoningParameters", deadReckoningParameters.2.or (.obj (DeadReckoningParameters.members DeadReckoningParameters.init))),
      ("marking", marking.2.or (.obj (EntityMarking.members EntityMarking.init))),
      ("capabilities", capabilities.2), ("variableParameters", variableParameters.2.or (.list []))] : List (String × Tree))) := by
    unfold EntityStatePdu.initHeap
    refine .bind (.inits (EntityInformationFamilyPdu.inits 1 1 _)) ?_
    refine .bind (.or (p := entityID) EntityIdentifier.makesNew (by simp [attrOf_putAttr_isSome, attrOf, EntityStatePdu.members, EntityInformationFamilyPdu.members, Pdu.members, PduSuperclass.members])) ?_
    refine .bind (.arg (p := forceId) (by simp [attrOf_putAttr_isSome, attrOf, EntityStatePdu.members, EntityInformationFamilyPdu.members, Pdu.members, PduSuperclass.members])) ?_
    refine .bind (.or (p := entityType) EntityType.makesNew (by simp [attrOf_putAttr_isSome, attrOf, EntityStatePdu.members, EntityInformationFamilyPdu.members, Pdu.members, PduSuperclass.members])) ?_
    refine .bind (.or (p := alternativeEntityType) EntityType.makesNew (by simp [attrOf_putAttr_isSome, attrOf, EntityStatePdu.members, EntityInformationFamilyPdu.members, Pdu.members, PduSuperclass.members])) ?_
    refine .bind (.or (p := entityLinearVelocity) Vector3Float.makesNew (by simp [attrOf_putAttr_isSome, attrOf, EntityStatePdu.members, EntityInformationFamilyPdu.members, Pdu.members, PduSuperclass.members])) ?_
    refine .bind (.or (p := entityLocation) WorldCoordinates.makesNew (by simp [attrOf_putAttr_isSome, attrOf, EntityStatePdu.members, EntityInformationFamilyPdu.members, Pdu.members, PduSuperclass.members])) ?_
    refine .bind (.or (p := entityOrientation) EulerAngles.makesNew (by simp [attrOf_putAttr_isSome, attrOf, EntityStatePdu.members, EntityInformationFamilyPdu.members, Pdu.members, PduSuperclass.members])) ?_
    refine .bind (.arg (p := entityAppearance) (by simp [attrOf_putAttr_isSome, attrOf, EntityStatePdu.members, EntityInformationFamilyPdu.members, Pdu.members, PduSuperclass.members])) ?_
    refine .bind (.or (p := deadReckoningParameters) DeadReckoningParameters.makesNew (by simp [attrOf_putAttr_isSome, attrOf, EntityStatePdu.members, EntityInformationFamilyPdu.members, Pdu.members, PduSuperclass.members])) ?_
    refine .bind (.or (p := marking) EntityMarking.makesNew (by simp [attrOf_putAttr_isSome, attrOf, EntityStatePdu.members, EntityInformationFamilyPdu.members, Pdu.members, PduSuperclass.members])) ?_
    refine .bind (.arg (p := capabilities) (by simp [attrOf_putAttr_isSome, attrOf, EntityStatePdu.members, EntityInformationFamilyPdu.members, Pdu.members, PduSuperclass.members])) ?_
    exact .cast (.or (p := variableParameters) .empty (by simp [attrOf_putAttr_isSome, attrOf, EntityStatePdu.members, EntityInformationFamilyPdu.members, Pdu.members, PduSuperclass.members]))
      (by simp [putAttr, EntityStatePdu.members, EntityInformationFamilyPdu.members, Pdu.members, PduSuperclass.members, Tree.ints, Tree.objs, Tree.optInt, Tree.optObj, Tree.intOr, Tree.optFloat, Tree.noneOr, IntercomParametersValue.tree])
  exact .new a

theorem Ctor.EntityStatePdu.lawful : Ctor.EntityStatePdu.Lawful := by
  intro kv kt e ok
  refine .select [("entityID", .none), ("forceId", .int 0), ("entityType", .none), ("alternativeEntityType", .none), ("entityLinearVelocity", .none), ("entityLocation", .none), ("entityOrientation", .none), ("entityAppearance", .int 0), ("deadReckoningParameters", .none), ("marking", .none), ("capabilities", .int 0), ("variableParameters", .none)] (by simp) e ?_
  exact .cast (EntityStatePdu.builds ((attrOf "entityID" kv).getD (.sc (.none)), (attrOf "entityID" kt).getD (.sc (.none))) ((attrOf "forceId" kv).getD (.sc (.int 0)), (attrOf "forceId" kt).getD (.sc (.int 0))) ((attrOf "entityType" kv).getD (.sc (.none)), (attrOf "entityType" kt).getD (.sc (.none))) ((attrOf "alternativeEntityType" kv).getD (.sc (.none)), (attrOf "alternativeEntityType" kt).getD (.sc (.none))) ((attrOf "entityLinearVelocity" kv).getD (.sc (.none)), (attrOf "entityLinearVelocity" kt).getD (.sc (.none))) ((attrOf "entityLocation" kv).getD (.sc (.none)), (attrOf "entityLocation" kt).getD (.sc (.none))) ((attrOf "entityOrientation" kv).getD (.sc (.none)), (attrOf "entityOrientation" kt).getD (.sc (.none))) ((attrOf "entityAppearance" kv).getD (.sc (.int 0)), (attrOf "entityAppearance" kt).getD (.sc (.int 0))) ((attrOf "deadReckoningParameters" kv).getD (.sc (.none)), (attrOf "deadReckoningParameters" kt).getD (.sc (.none))) ((attrOf "marking" kv).getD (.sc (.none)), (attrOf "marking" kt).getD (.sc (.none))) ((attrOf "capabilities" kv).getD (.sc (.int 0)), (attrOf "capabilities" kt).getD (.sc (.int 0))) ((attrOf "variableParameters" kv).getD (.sc (.none)), (attrOf "variableParameters" kt).getD (.sc (.none)))) (by
    simp [Ctor.built, Ctor.EntityStatePdu, HeapClass.EntityStatePdu, InPlace.value, InPlace.EntityStatePdu, Codec.EntityStatePdu, EntityStatePdu.init, Param.put, Tree.change, value_asIs, value_orFresh, value_copy, Tree.or_list, EntityStatePdu.members, EntityInformationFamilyPdu.members, Pdu.members, PduSuperclass.members, Tree.ints, Tree.objs, Tree.optInt, Tree.optObj, Tree.intOr, Tree.optFloat, Tree.noneOr, IntercomParametersValue.tree])

theorem StartResumePdu.builds (realWorldTime simulationTime requestID : Val × Tree) :
    Builds (StartResumePdu.newHeap realWorldTime.1 simulationTime.1 requestID.1) [realWorldTime, simulationTime, requestID]
      (.obj (SimulationManagementFamilyPdu.members { pduType := 13, protocolFamily := 5 } ++ ([("realWorldTime", realWorldTime.2.or (.obj (ClockTime.members ClockTime.init))),
      ("simulationTime", simulationTime.2.or (.obj (ClockTime.members ClockTime.init))),
      ("requestID", requestID.2)] : List (String × Tree)))) := by
  have a : Fills (fun self => StartResumePdu.initHeap self realWorldTime.1 simulationTime.1 requestID.1) [realWorldTime, simulationTime, requestID]
      (([("protocolVersion", .sc .absent), ("exerciseID", .sc .absent), ("pduType", .sc (.int 13)), ("protocolFamily", .sc (.int 5)), ("timestamp", .sc .absent), ("length", .sc .absent)] : List (String × Tree)) ++
      (([("pduStatus", .sc .absent), ("padding", .sc .absent)] : List (String × Tree)) ++
      (([("originatingEntityID", .sc .absent), ("receivingEntityID", .sc .absent)] : List (String × Tree)) ++
      (([("realWorldTime", .sc .absent), ("simulationTime", .sc .absent), ("requestID", .sc .absent)] : List (String × Tree)) ++ [])))) []
      (SimulationManagementFamilyPdu.members { pduType := 13, protocolFamily := 5 } ++ ([("realWorldTime", realWorldTime.2.or (.obj (ClockTime.members ClockTime.init))),
      ("simulationTime", simulationTime.2.or (.obj (ClockTime.members ClockTime.init))),
      ("requestID", requestID.2)] : List (String × Tree))) := by
    unfold StartResumePdu.initHeap
    refine .bind (.inits (SimulationManagementFamilyPdu.inits 13 5 _)) ?_
    refine .bind (.or (p := realWorldTime) ClockTime.makesNew (by simp [attrOf_putAttr_isSome, attrOf, StartResumePdu.members, SimulationManagementFamilyPdu.members, Pdu.members, PduSuperclass.members])) ?_
    refine .bind (.or (p := simulationTime) ClockTime.makesNew (by simp [attrOf_putAttr_isSome, attrOf, StartResumePdu.members, SimulationManagementFamilyPdu.members, Pdu.members, PduSuperclass.members])) ?_
    exact .cast (.arg (p := requestID) (by simp [attrOf_putAttr_isSome, attrOf, StartResumePdu.members, SimulationManagementFamilyPdu.members, Pdu.members, PduSuperclass.members]))
      (by simp [putAttr, StartResumePdu.members, SimulationManagementFamilyPdu.members, Pdu.members, PduSuperclass.members, Tree.ints, Tree.objs, Tree.optInt, Tree.optObj, Tree.intOr, Tree.optFloat, Tree.noneOr, IntercomParametersValue.tree])
  exact .new a

theorem Ctor.StartResumePdu.lawful : Ctor.StartResumePdu.Lawful := by
  intro kv kt e ok
  refine .select [("realWorldTime", .none), ("simulationTime", .none), ("requestID", .int 0)] (by simp) e ?_
  exact .cast (StartResumePdu.builds ((attrOf "realWorldTime" kv).getD (.sc (.none)), (attrOf "realWorldTime" kt).getD (.sc (.none))) ((attrOf "simulationTime" kv).getD (.sc (.none)), (attrOf "simulationTime" kt).getD (.sc (.none))) ((attrOf "requestID" kv).getD (.sc (.int 0)), (attrOf "requestID" kt).getD (.sc (.int 0)))) (by
    simp [Ctor.built, Ctor.StartResumePdu, HeapClass.StartResumePdu, InPlace.value, InPlace.StartResumePdu, Codec.StartResumePdu, StartResumePdu.init, Param.put, Tree.change, value_asIs, value_orFresh, value_copy, Tree.or_list, StartResumePdu.members, SimulationManagementFamilyPdu.members, Pdu.members, PduSuperclass.members, Tree.ints, Tree.objs, Tree.optInt, Tree.optObj, Tree.intOr, Tree.optFloat, Tree.noneOr, IntercomParametersValue.tree])

theorem ElectromagneticEmissionsPdu.builds (emittingEntityID eventID stateUpdateIndicator systems : Val × Tree) :
    Builds (ElectromagneticEmissionsPdu.newHeap emittingEntityID.1 eventID.1 stateUpdateIndicator.1 systems.1) [emittingEntityID, eventID, stateUpdateIndicator, systems]
      (.obj (DistributedEmissionsFamilyPdu.members { pduType := 23, protocolFamily := 6 } ++ ([("emittingEntityID", emittingEntityID.2.or (.obj (EntityIdentifier.members EntityIdentifier.init))),
      ("eventID", eventID.2.or (.obj (EventIdentifier.members EventIdentifier.init))),
      ("stateUpdateIndicator", stateUpdateIndicator.2), ("systems", systems.2.or (.list [])),
      ("paddingForEmissionsPdu", .sc (.int 0))] : List (String × Tree)))) := by
  have a : Fills (fun self => ElectromagneticEmissionsPdu.initHeap self emittingEntityID.1 eventID.1 stateUpdateIndicator.1 systems.1) [emittingEntityID, eventID, stateUpdateIndicator, systems]
      (([("protocolVersion", .sc .absent), ("exerciseID", .sc .absent), ("pduType", .sc (.int 23)), ("protocolFamily", .sc (.int 6)), ("timestamp", .sc .absent), ("length", .sc .absent)] : List (String × Tree)) ++
      (([("pduStatus", .sc .absent), ("padding", .sc .absent)] : List (String × Tree)) ++
      ([] ++
      (([("emittingEntityID", .sc .absent), ("eventID", .sc .absent), ("stateUpdateIndicator", .sc .absent), ("systems", .sc .absent), ("paddingForEmissionsPdu", .sc .absent)] : List (String × Tree)) ++ [])))) []
      (DistributedEmissionsFamilyPdu.members { pduType := 23, protocolFamily := 6 } ++ ([("emittingEntityID", emittingEntityID.2.or (.obj (EntityIdentifier.members EntityIdentifier.init))),
      ("eventID", eventID.2.or (.obj (EventIdentifier.members EventIdentifier.init))),
      ("stateUpdateIndicator", stateUpdateIndicator.2), ("systems", systems.2.or (.list [])),
      ("paddingForEmissionsPdu", .sc (.int 0))] : List (String × Tree))) := by
    unfold ElectromagneticEmissionsPdu.initHeap
    refine .bind (.inits (DistributedEmissionsFamilyPdu.inits 23 6 _)) ?_
    refine .bind (.or (p := emittingEntityID) EntityIdentifier.makesNew (by simp [attrOf_putAttr_isSome, attrOf, ElectromagneticEmissionsPdu.members, DistributedEmissionsFamilyPdu.members, Pdu.members, PduSuperclass.members])) ?_
    refine .bind (.or (p := eventID) EventIdentifier.makesNew (by simp [attrOf_putAttr_isSome, attrOf, ElectromagneticEmissionsPdu.members, DistributedEmissionsFamilyPdu.members, Pdu.members, PduSuperclass.members])) ?_
    refine .bind (.arg (p := stateUpdateIndicator) (by simp [attrOf_putAttr_isSome, attrOf, ElectromagneticEmissionsPdu.members, DistributedEmissionsFamilyPdu.members, Pdu.members, PduSuperclass.members])) ?_
    refine .bind (.or (p := systems) .empty (by simp [attrOf_putAttr_isSome, attrOf, ElectromagneticEmissionsPdu.members, DistributedEmissionsFamilyPdu.members, Pdu.members, PduSuperclass.members])) ?_
    exact .cast (.inits (.set' (by simp [attrOf_putAttr_isSome, attrOf, ElectromagneticEmissionsPdu.members, DistributedEmissionsFamilyPdu.members, Pdu.members, PduSuperclass.members])))
      (by simp [putAttr, ElectromagneticEmissionsPdu.members, DistributedEmissionsFamilyPdu.members, Pdu.members, PduSuperclass.members, Tree.ints, Tree.objs, Tree.optInt, Tree.optObj, Tree.intOr, Tree.optFloat, Tree.noneOr, IntercomParametersValue.tree])
  exact .new a

theorem Ctor.ElectromagneticEmissionsPdu.lawful : Ctor.ElectromagneticEmissionsPdu.Lawful := by
  intro kv kt e ok
  refine .select [("emittingEntityID", .none), ("eventID", .none), ("stateUpdateIndicator", .int 0), ("systems", .none)] (by simp) e ?_
  exact .cast (ElectromagneticEmissionsPdu.builds ((attrOf "emittingEntityID" kv).getD (.sc (.none)), (attrOf "emittingEntityID" kt).getD (.sc (.none))) ((attrOf "eventID" kv).getD (.sc (.none)), (attrOf "eventID" kt).getD (.sc (.none))) ((attrOf "stateUpdateIndicator" kv).getD (.sc (.int 0)), (attrOf "stateUpdateIndicator" kt).getD (.sc (.int 0))) ((attrOf "systems" kv).getD (.sc (.none)), (attrOf "systems" kt).getD (.sc (.none)))) (by
    simp [Ctor.built, Ctor.ElectromagneticEmissionsPdu, HeapClass.ElectromagneticEmissionsPdu, InPlace.value, InPlace.ElectromagneticEmissionsPdu, Codec.ElectromagneticEmissionsPdu, ElectromagneticEmissionsPdu.init, Param.put, Tree.change, value_asIs, value_orFresh, value_copy, Tree.or_list, ElectromagneticEmissionsPdu.members, DistributedEmissionsFamilyPdu.members, Pdu.members, PduSuperclass.members, Tree.ints, Tree.objs, Tree.optInt, Tree.optObj, Tree.intOr, Tree.optFloat, Tree.noneOr, IntercomParametersValue.tree])

theorem ResupplyOfferPdu.builds (receivingEntityID supplyingEntityID supplies : Val × Tree) :
    Builds (ResupplyOfferPdu.newHeap receivingEntityID.1 supplyingEntityID.1 supplies.1) [receivingEntityID, supplyingEntityID, supplies]
      (.obj (LogisticsFamilyPdu.members { pduType := 6, protocolFamily := 3 } ++ ([("receivingEntityID", receivingEntityID.2.or (.obj (EntityIdentifier.members EntityIdentifier.init))),
      ("supplyingEntityID", supplyingEntityID.2.or (.obj (EntityIdentifier.members EntityIdentifier.init))),
      ("padding1", .sc (.int 0)), ("padding2", .sc (.int 0)), ("supplies", supplies.2.or (.list []))] : List (String × Tree)))) := by
  have a : Fills (fun self => ResupplyOfferPdu.initHeap self receivingEntityID.1 supplyingEntityID.1 supplies.1) [receivingEntityID, supplyingEntityID, supplies]
      (([("protocolVersion", .sc .absent), ("exerciseID", .sc .absent), ("pduType", .sc (.int 6)), ("protocolFamily", .sc (.int 3)), ("timestamp", .sc .absent), ("length", .sc .absent)] : List (String × Tree)) ++
      (([("pduStatus", .sc .absent), ("padding", .sc .absent)] : List (String × Tree)) ++
      ([] ++
      (([("receivingEntityID", .sc .absent), ("supplyingEntityID", .sc .absent), ("padding1", .sc .absent), ("padding2", .sc .absent), ("supplies", .sc .absent)] : List (String × Tree)) ++ [])))) []
      (LogisticsFamilyPdu.members { pduType := 6, protocolFamily := 3 } ++ ([("receivingEntityID", receivingEntityID.2.or (.obj (EntityIdentifier.members EntityIdentifier.init))),
      ("supplyingEntityID", supplyingEntityID.2.or (.obj (EntityIdentifier.members EntityIdentifier.init))),
      ("padding1", .sc (.int 0)), ("padding2", .sc (.int 0)), ("supplies", supplies.2.or (.list []))] : List (String × Tree))) := by
    unfold ResupplyOfferPdu.initHeap
    refine .bind (.inits (LogisticsFamilyPdu.inits 6 3 _)) ?_
    refine .bind (.or (p := receivingEntityID) EntityIdentifier.makesNew (by simp [attrOf_putAttr_isSome, attrOf, ResupplyOfferPdu.members, LogisticsFamilyPdu.members, Pdu.members, PduSuperclass.members])) ?_
    refine .bind (.or (p := supplyingEntityID) EntityIdentifier.makesNew (by simp [attrOf_putAttr_isSome, attrOf, ResupplyOfferPdu.members, LogisticsFamilyPdu.members, Pdu.members, PduSuperclass.members])) ?_
    refine .bind (.inits (.set' (by simp [attrOf_putAttr_isSome, attrOf, ResupplyOfferPdu.members, LogisticsFamilyPdu.members, Pdu.members, PduSuperclass.members]))) ?_
    refine .bind (.inits (.set' (by simp [attrOf_putAttr_isSome, attrOf, ResupplyOfferPdu.members, LogisticsFamilyPdu.members, Pdu.members, PduSuperclass.members]))) ?_
    exact .cast (.or (p := supplies) .empty (by simp [attrOf_putAttr_isSome, attrOf, ResupplyOfferPdu.members, LogisticsFamilyPdu.members, Pdu.members, PduSuperclass.members]))
      (by simp [putAttr, ResupplyOfferPdu.members, LogisticsFamilyPdu.members, Pdu.members, PduSuperclass.members, Tree.ints, Tree.objs, Tree.optInt, Tree.optObj, Tree.intOr, Tree.optFloat, Tree.noneOr, IntercomParametersValue.tree])
  exact .new a

theorem Ctor.ResupplyOfferPdu.lawful : Ctor.ResupplyOfferPdu.Lawful := by
  intro kv kt e ok
  refine .select [("receivingEntityID", .none), ("supplyingEntityID", .none), ("supplies", .none)] (by simp) e ?_
  exact .cast (ResupplyOfferPdu.builds ((attrOf "receivingEntityID" kv).getD (.sc (.none)), (attrOf "receivingEntityID" kt).getD (.sc (.none))) ((attrOf "supplyingEntityID" kv).getD (.sc (.none)), (attrOf "supplyingEntityID" kt).getD (.sc (.none))) ((attrOf "supplies" kv).getD (.sc (.none)), (attrOf "supplies" kt).getD (.sc (.none)))) (by
    simp [Ctor.built, Ctor.ResupplyOfferPdu, HeapClass.ResupplyOfferPdu, InPlace.value, InPlace.ResupplyOfferPdu, Codec.ResupplyOfferPdu, ResupplyOfferPdu.init, Param.put, Tree.change, value_asIs, value_orFresh, value_copy, Tree.or_list, ResupplyOfferPdu.members, LogisticsFamilyPdu.members, Pdu.members, PduSuperclass.members, Tree.ints, Tree.objs, Tree.optInt, Tree.optObj, Tree.intOr, Tree.optFloat, Tree.noneOr, IntercomParametersValue.tree])

theorem SetDataReliablePdu.builds (requiredReliabilityService requestID fixedDatumRecords variableDatumRecords : Val × Tree) :
    Builds (SetDataReliablePdu.newHeap requiredReliabilityService.1 requestID.1 fixedDatumRecords.1 variableDatumRecords.1) [requiredReliabilityService, requestID, fixedDatumRecords, variableDatumRecords]
      (.obj (SimulationManagementWithReliabilityFamilyPdu.members { pduType := 59, protocolFamily := 10 } ++ ([("requiredReliabilityService", requiredReliabilityService.2), ("pad1", .sc (.int 0)),
      ("pad2", .sc (.int 0)), ("requestID", requestID.2),
      ("_datums", .obj [("fixedDatumRecords", (fixedDatumRecords.2.or (.list [])).or (.list [])), ("variableDatumRecords", (variableDatumRecords.2.or (.list [])).or (.list []))])] : List (String × Tree)))) := by
  have a : Fills (fun self => SetDataReliablePdu.initHeap self requiredReliabilityService.1 requestID.1 fixedDatumRecords.1 variableDatumRecords.1) [requiredReliabilityService, requestID, fixedDatumRecords, variableDatumRecords]
      (([("protocolVersion", .sc .absent), ("exerciseID", .sc .absent), ("pduType", .sc (.int 59)), ("protocolFamily", .sc (.int 10)), ("timestamp", .sc .absent), ("length", .sc .absent)] : List (String × Tree)) ++
      (([("pduStatus", .sc .absent), ("padding", .sc .absent)] : List (String × Tree)) ++
      (([("originatingEntityID", .sc .absent), ("receivingEntityID", .sc .absent)] : List (String × Tree)) ++
      (([("requiredReliabilityService", .sc .absent), ("pad1", .sc .absent), ("pad2", .sc .absent), ("requestID", .sc .absent), ("_datums", .sc .absent)] : List (String × Tree)) ++ [])))) []
      (SimulationManagementWithReliabilityFamilyPdu.members { pduType := 59, protocolFamily := 10 } ++ ([("requiredReliabilityService", requiredReliabilityService.2), ("pad1", .sc (.int 0)),
      ("pad2", .sc (.int 0)), ("requestID", requestID.2),
      ("_datums", .obj [("fixedDatumRecords", (fixedDatumRecords.2.or (.list [])).or (.list [])), ("variableDatumRecords", (variableDatumRecords.2.or (.list [])).or (.list []))])] : List (String × Tree))) := by
    unfold SetDataReliablePdu.initHeap
    refine .bind (.inits (SimulationManagementWithReliabilityFamilyPdu.inits 59 10 _)) ?_
    refine .bind (.arg (p := requiredReliabilityService) (by simp [attrOf_putAttr_isSome, attrOf, SetDataReliablePdu.members, SimulationManagementWithReliabilityFamilyPdu.members, Pdu.members, PduSuperclass.members])) ?_
    refine .bind (.inits (.set' (by simp [attrOf_putAttr_isSome, attrOf, SetDataReliablePdu.members, SimulationManagementWithReliabilityFamilyPdu.members, Pdu.members, PduSuperclass.members]))) ?_
    refine .bind (.inits (.set' (by simp [attrOf_putAttr_isSome, attrOf, SetDataReliablePdu.members, SimulationManagementWithReliabilityFamilyPdu.members, Pdu.members, PduSuperclass.members]))) ?_
    refine .bind (.arg (p := requestID) (by simp [attrOf_putAttr_isSome, attrOf, SetDataReliablePdu.members, SimulationManagementWithReliabilityFamilyPdu.members, Pdu.members, PduSuperclass.members])) ?_
    exact .cast (.lists (p := fixedDatumRecords) (q := variableDatumRecords) (k := fun a b => DatumSpecification.newHeap a b)
      (t := fun t u => .obj [("fixedDatumRecords", t.or (.list [])), ("variableDatumRecords", u.or (.list []))]) DatumSpecification.builds (by simp [attrOf_putAttr_isSome, attrOf, SetDataReliablePdu.members, SimulationManagementWithReliabilityFamilyPdu.members, Pdu.members, PduSuperclass.members]))
      (by simp [putAttr, SetDataReliablePdu.members, SimulationManagementWithReliabilityFamilyPdu.members, Pdu.members, PduSuperclass.members, Tree.ints, Tree.objs, Tree.optInt, Tree.optObj, Tree.intOr, Tree.optFloat, Tree.noneOr, IntercomParametersValue.tree])
  exact .new a

theorem Ctor.SetDataReliablePdu.lawful : Ctor.SetDataReliablePdu.Lawful := by
  intro kv kt e ok
  refine .select [("requiredReliabilityService", .int 0), ("requestID", .int 0), ("fixedDatumRecords", .none), ("variableDatumRecords", .none)] (by simp) e ?_
  exact .cast (SetDataReliablePdu.builds ((attrOf "requiredReliabilityService" kv).getD (.sc (.int 0)), (attrOf "requiredReliabilityService" kt).getD (.sc (.int 0))) ((attrOf "requestID" kv).getD (.sc (.int 0)), (attrOf "requestID" kt).getD (.sc (.int 0))) ((attrOf "fixedDatumRecords" kv).getD (.sc (.none)), (attrOf "fixedDatumRecords" kt).getD (.sc (.none))) ((attrOf "variableDatumRecords" kv).getD (.sc (.none)), (attrOf "variableDatumRecords" kt).getD (.sc (.none)))) (by
    simp [Ctor.built, Ctor.SetDataReliablePdu, HeapClass.SetDataReliablePdu, InPlace.value, InPlace.SetDataReliablePdu, Codec.SetDataReliablePdu, SetDataReliablePdu.init, Param.put, Tree.change, value_asIs, value_orFresh, value_copy, Tree.or_list, SetDataReliablePdu.members, SimulationManagementWithReliabilityFamilyPdu.members, Pdu.members, PduSuperclass.members, DatumSpecification.members, DatumSpecification.init, Tree.ints, Tree.objs, Tree.optInt, Tree.optObj, Tree.intOr, Tree.optFloat, Tree.noneOr, IntercomParametersValue.tree])

theorem EventReportPdu.builds (eventType fixedDatumRecords variableDatumRecords : Val × Tree) :
    Builds (EventReportPdu.newHeap eventType.1 fixedDatumRecords.1 variableDatumRecords.1) [eventType, fixedDatumRecords, variableDatumRecords]
      (.obj (SimulationManagementFamilyPdu.members { pduType := 21, protocolFamily := 5 } ++ ([("eventType", eventType.2), ("padding1", .sc (.int 0)),
      ("_datums", .obj [("fixedDatumRecords", (fixedDatumRecords.2.or (.list [])).or (.list [])), ("variableDatumRecords", (variableDatumRecords.2.or (.list [])).or (.list []))])] : List (String × Tree)))) := by
  have a : Fills (fun self => EventReportPdu.initHeap self eventType.1 fixedDatumRecords.1 variableDatumRecords.1) [eventType, fixedDatumRecords, variableDatumRecords]
      (([("protocolVersion", .sc .absent), ("exerciseID", .sc .absent), ("pduType", .sc (.int 21)), ("protocolFamily", .sc (.int 5)), ("timestamp", .sc .absent), ("length", .sc .absent)] : List (String × Tree)) ++
      (([("pduStatus", .sc .absent), ("padding", .sc .absent)] : List (String × Tree)) ++
      (([("originatingEntityID", .sc .absent), ("receivingEntityID", .sc .absent)] : List (String × Tree)) ++
      (([("eventType", .sc .absent), ("padding1", .sc .absent), ("_datums", .sc .absent)] : List (String × Tree)) ++ [])))) []
      (SimulationManagementFamilyPdu.members { pduType := 21, protocolFamily := 5 } ++ ([("eventType", eventType.2), ("padding1", .sc (.int 0)),
      ("_datums", .obj [("fixedDatumRecords", (fixedDatumRecords.2.or (.list [])).or (.list [])), ("variableDatumRecords", (variableDatumRecords.2.or (.list [])).or (.list []))])] : List (String × Tree))) := by
    unfold EventReportPdu.initHeap
    refine .bind (.inits (SimulationManagementFamilyPdu.inits 21 5 _)) ?_
    refine .bind (.arg (p := eventType) (by simp [attrOf_putAttr_isSome, attrOf, EventReportPdu.members, SimulationManagementFamilyPdu.members, Pdu.members, PduSuperclass.members])) ?_
    refine .bind (.inits (.set' (by simp [attrOf_putAttr_isSome, attrOf, EventReportPdu.members, SimulationManagementFamilyPdu.members, Pdu.members, PduSuperclass.members]))) ?_
    exact .cast (.lists (p := fixedDatumRecords) (q := variableDatumRecords) (k := fun a b => DatumSpecification.newHeap a b)
      (t := fun t u => .obj [("fixedDatumRecords", t.or (.list [])), ("variableDatumRecords", u.or (.list []))]) DatumSpecification.builds (by simp [attrOf_putAttr_isSome, attrOf, EventReportPdu.members, SimulationManagementFamilyPdu.members, Pdu.members, PduSuperclass.members]))
      (by simp [putAttr, EventReportPdu.members, SimulationManagementFamilyPdu.members, Pdu.members, PduSuperclass.members, Tree.ints, Tree.objs, Tree.optInt, Tree.optObj, Tree.intOr, Tree.optFloat, Tree.noneOr, IntercomParametersValue.tree])
  exact .new a

theorem Ctor.EventReportPdu.lawful : Ctor.EventReportPdu.Lawful := by
  intro kv kt e ok
  refine .select [("eventType", .int 0), ("fixedDatumRecords", .none), ("variableDatumRecords", .none)] (by simp) e ?_
  exact .cast (EventReportPdu.builds ((attrOf "eventType" kv).getD (.sc (.int 0)), (attrOf "eventType" kt).getD (.sc (.int 0))) ((attrOf "fixedDatumRecords" kv).getD (.sc (.none)), (attrOf "fixedDatumRecords" kt).getD (.sc (.none))) ((attrOf "variableDatumRecords" kv).getD (.sc (.none)), (attrOf "variableDatumRecords" kt).getD (.sc (.none)))) (by
    simp [Ctor.built, Ctor.EventReportPdu, HeapClass.EventReportPdu, InPlace.value, InPlace.EventReportPdu, Codec.EventReportPdu, EventReportPdu.init, Param.put, Tree.change, value_asIs, value_orFresh, value_copy, Tree.or_list, EventReportPdu.members, SimulationManagementFamilyPdu.members, Pdu.members, PduSuperclass.members, DatumSpecification.members, DatumSpecification.init, Tree.ints, Tree.objs, Tree.optInt, Tree.optObj, Tree.intOr, Tree.optFloat, Tree.noneOr, IntercomParametersValue.tree])

theorem PointObjectStatePdu.builds (objectID referencedObjectID updateNumber forceID modifications objectType objectLocation objectOrientation objectAppearance requesterID receivingID : Val × Tree) :
    Builds (PointObjectStatePdu.newHeap objectID.1 referencedObjectID.1 updateNumber.1 forceID.1 modifications.1 objectType.1 objectLocation.1 objectOrientation.1 objectAppearance.1 requesterID.1 receivingID.1) [objectID, referencedObjectID, updateNumber, forceID, modifications, objectType, objectLocation, objectOrientation, objectAppearance, requesterID, receivingID]
      (.obj (SyntheticEnvironmentFamilyPdu.members { pduType := 43, protocolFamily := 9 } ++ ([("objectID", objectID.2.or (.obj (EntityIdentifier.members EntityIdentifier.init))),
      ("referencedObjectID", referencedObjectID.2.or (.obj (EntityIdentifier.members EntityIdentifier.init))),
      ("updateNumber", updateNumber.2), ("forceID", forceID.2), ("modifications", modifications.2),
      ("objectType", objectType.2.or (.obj (ObjectType.members ObjectType.init))),
      ("objectLocation", objectLocation.2.or (.obj (WorldCoordinates.members WorldCoordinates.init))),
      ("objectOrientation", objectOrientation.2.or (.obj (EulerAngles.members EulerAngles.init))),
      ("objectAppearance", objectAppearance.2), ("pad1", .sc (.int 0)),
      ("requesterID", requesterID.2.or (.obj (SimulationAddress.members SimulationAddress.init))),
      ("receivingID", receivingID.2.or (.obj (SimulationAddress.members SimulationAddress.init))),
      ("pad2", .sc (.int 0))] : List (String × Tree)))) := by
  have a : Fills (fun self => PointObjectStatePdu.initHeap self objectID.1 referencedObjectID.1 updateNumber.1 forceID.1 modifications.1 objectType.1 objectLocation.1 objectOrientation.1 objectAppearance.1 requesterID.1 receivingID.1) [objectID, referencedObjectID, updateNumber, forceID, modifications, objectType, objectLocation, objectOrientation, objectAppearance, requesterID, receivingID]
      (([("protocolVersion", .sc .absent), ("exerciseID", .sc .absent), ("pduType", .sc (.int 43)), ("protocolFamily", .sc (.int 9)), ("timestamp", .sc .absent), ("length", .sc .absent)] : List (String × Tree)) ++
      (([("pduStatus", .sc .absent), ("padding", .sc .absent)] : List (String × Tree)) ++
      ([] ++
      (([("objectID", .sc .absent), ("referencedObjectID", .sc .absent), ("updateNumber", .sc .absent), ("forceID", .sc .absent), ("modifications", .sc .absent), ("objectType", .sc .absent), ("objectLocation", .sc .absent), ("objectOrientation", .sc .absent), ("objectAppearance", .sc .absent), ("pad1", .sc .absent), ("requesterID", .sc .absent), ("receivingID", .sc .absent), ("pad2", .sc .absent)] : List (String × Tree)) ++ [])))) []
      (SyntheticEnvironmentFamilyPdu.members { pduType := 43, protocolFamily := 9 } ++ ([("objectID", objectID.2.or (.obj (EntityIdentifier.members EntityIdentifier.init))),
      ("referencedObjectID", referencedObjectID.2.or (.obj (EntityIdentifier.members EntityIdentifier.init))),
      ("updateNumber", updateNumber.2), ("forceID", forceID.2), ("modifications", modifications.2),
      ("objectType", objectType.2.or (.obj (ObjectType.members ObjectType.init))),
      ("objectLocation", objectLocation.2.or (.obj (WorldCoordinates.members WorldCoordinates.init))),
      ("objectOrientation", objectOrientation.2.or (.obj (EulerAngles.members EulerAngles.init))),
      ("objectAppearance", objectAppearance.2), ("pad1", .sc (.int 0)),
      ("requesterID", requesterID.2.or (.obj (SimulationAddress.members SimulationAddress.init))),
      ("receivingID", receivingID.2.or (.obj (SimulationAddress.members SimulationAddress.init))),
      ("pad2", .sc (.int 0))] : List (String × Tree))) := by
    unfold PointObjectStatePdu.initHeap
    refine .bind (.inits (SyntheticEnvironmentFamilyPdu.inits 43 9 _)) ?_
    refine .bind (.or (p := objectID) EntityIdentifier.makesNew (by simp [attrOf_putAttr_isSome, attrOf, PointObjectStatePdu.members, SyntheticEnvironmentFamilyPdu.members, Pdu.members, PduSuperclass.members])) ?_
    refine .bind (.or (p := referencedObjectID) EntityIdentifier.makesNew (by simp [attrOf_putAttr_isSome, attrOf, PointObjectStatePdu.members, SyntheticEnvironmentFamilyPdu.members, Pdu.members, PduSuperclass.members])) ?_
    refine .bind (.arg (p := updateNumber) (by simp [attrOf_putAttr_isSome, attrOf, PointObjectStatePdu.members, SyntheticEnvironmentFamilyPdu.members, Pdu.members, PduSuperclass.members])) ?_
    refine .bind (.arg (p := forceID) (by simp [attrOf_putAttr_isSome, attrOf, PointObjectStatePdu.members, SyntheticEnvironmentFamilyPdu.members, Pdu.members, PduSuperclass.members])) ?_
    refine .bind (.arg (p := modifications) (by simp [attrOf_putAttr_isSome, attrOf, PointObjectStatePdu.members, SyntheticEnvironmentFamilyPdu.members, Pdu.members, PduSuperclass.members])) ?_
    refine .bind (.or (p := objectType) ObjectType.makesNew (by simp [attrOf_putAttr_isSome, attrOf, PointObjectStatePdu.members, SyntheticEnvironmentFamilyPdu.members, Pdu.members, PduSuperclass.members])) ?_
    refine .bind (.or (p := objectLocation) WorldCoordinates.makesNew (by simp [attrOf_putAttr_isSome, attrOf, PointObjectStatePdu.members, SyntheticEnvironmentFamilyPdu.members, Pdu.members, PduSuperclass.members])) ?_
    refine .bind (.or (p := objectOrientation) EulerAngles.makesNew (by simp [attrOf_putAttr_isSome, attrOf, PointObjectStatePdu.members, SyntheticEnvironmentFamilyPdu.members, Pdu.members, PduSuperclass.members])) ?_
    refine .bind (.arg (p := objectAppearance) (by simp [attrOf_putAttr_isSome, attrOf, PointObjectStatePdu.members, SyntheticEnvironmentFamilyPdu.members, Pdu.members, PduSuperclass.members])) ?_
    refine .bind (.inits (.set' (by simp [attrOf_putAttr_isSome, attrOf, PointObjectStatePdu.members, SyntheticEnvironmentFamilyPdu.members, Pdu.members, PduSuperclass.members]))) ?_
    refine .bind (.or (p := requesterID) SimulationAddress.makesNew (by simp [attrOf_putAttr_isSome, attrOf, PointObjectStatePdu.members, SyntheticEnvironmentFamilyPdu.members, Pdu.members, PduSuperclass.members])) ?_
    refine .bind (.or (p := receivingID) SimulationAddress.makesNew (by simp [attrOf_putAttr_isSome, attrOf, PointObjectStatePdu.members, SyntheticEnvironmentFamilyPdu.members, Pdu.members, PduSuperclass.members])) ?_
    exact .cast (.inits (.set' (by simp [attrOf_putAttr_isSome, attrOf, PointObjectStatePdu.members, SyntheticEnvironmentFamilyPdu.members, Pdu.members, PduSuperclass.members])))
      (by simp [putAttr, PointObjectStatePdu.members, SyntheticEnvironmentFamilyPdu.members, Pdu.members, PduSuperclass.members, Tree.ints, Tree.objs, Tree.optInt, Tree.optObj, Tree.intOr, Tree.optFloat, Tree.noneOr, IntercomParametersValue.tree])
  exact .new a

theorem Ctor.PointObjectStatePdu.lawful : Ctor.PointObjectStatePdu.Lawful := by
  intro kv kt e ok
  refine .select [("objectID", .none), ("referencedObjectID", .none), ("updateNumber", .int 0), ("forceID", .int 0), ("modifications", .int 0), ("objectType", .none), ("objectLocation", .none), ("objectOrientation", .none), ("objectAppearance", .float 0x0000000000000000), ("requesterID", .none), ("receivingID", .none)] (by simp) e ?_
  exact .cast (PointObjectStatePdu.builds ((attrOf "objectID" kv).getD (.sc (.none)), (attrOf "objectID" kt).getD (.sc (.none))) ((attrOf "referencedObjectID" kv).getD (.sc (.none)), (attrOf "referencedObjectID" kt).getD (.sc (.none))) ((attrOf "updateNumber" kv).getD (.sc (.int 0)), (attrOf "updateNumber" kt).getD (.sc (.int 0))) ((attrOf "forceID" kv).getD (.sc (.int 0)), (attrOf "forceID" kt).getD (.sc (.int 0))) ((attrOf "modifications" kv).getD (.sc (.int 0)), (attrOf "modifications" kt).getD (.sc (.int 0))) ((attrOf "objectType" kv).getD (.sc (.none)), (attrOf "objectType" kt).getD (.sc (.none))) ((attrOf "objectLocation" kv).getD (.sc (.none)), (attrOf "objectLocation" kt).getD (.sc (.none))) ((attrOf "objectOrientation" kv).getD (.sc (.none)), (attrOf "objectOrientation" kt).getD (.sc (.none))) ((attrOf "objectAppearance" kv).getD (.sc (.float 0x0000000000000000)), (attrOf "objectAppearance" kt).getD (.sc (.float 0x0000000000000000))) ((attrOf "requesterID" kv).getD (.sc (.none)), (attrOf "requesterID" kt).getD (.sc (.none))) ((attrOf "receivingID" kv).getD (.sc (.none)), (attrOf "receivingID" kt).getD (.sc (.none)))) (by
    simp [Ctor.built, Ctor.PointObjectStatePdu, HeapClass.PointObjectStatePdu, InPlace.value, InPlace.PointObjectStatePdu, Codec.PointObjectStatePdu, PointObjectStatePdu.init, Param.put, Tree.change, value_asIs, value_orFresh, value_copy, Tree.or_list, PointObjectStatePdu.members, SyntheticEnvironmentFamilyPdu.members, Pdu.members, PduSuperclass.members, Tree.ints, Tree.objs, Tree.optInt, Tree.optObj, Tree.intOr, Tree.optFloat, Tree.noneOr, IntercomParametersValue.tree])

theorem DataPdu.builds (requestID fixedDatumRecords variableDatumRecords : Val × Tree) :
    Builds (DataPdu.newHeap requestID.1 fixedDatumRecords.1 variableDatumRecords.1) [requestID, fixedDatumRecords, variableDatumRecords]
      (.obj (SimulationManagementFamilyPdu.members { pduType := 20, protocolFamily := 5 } ++ ([("requestID", requestID.2), ("padding1", .sc (.int 0)),
      ("_datums", .obj [("fixedDatumRecords", (fixedDatumRecords.2.or (.list [])).or (.list [])), ("variableDatumRecords", (variableDatumRecords.2.or (.list [])).or (.list []))])] : List (String × Tree)))) := by
  have a : Fills (fun self => DataPdu.initHeap self requestID.1 fixedDatumRecords.1 variableDatumRecords.1) [requestID, fixedDatumRecords, variableDatumRecords]
      (([("protocolVersion", .sc .absent), ("exerciseID", .sc .absent), ("pduType", .sc (.int 20)), ("protocolFamily", .sc (.int 5)), ("timestamp", .sc .absent), ("length", .sc .absent)] : List (String × Tree)) ++
      (([("pduStatus", .sc .absent), ("padding", .sc .absent)] : List (String × Tree)) ++
      (([("originatingEntityID", .sc .absent), ("receivingEntityID", .sc .absent)] : List (String × Tree)) ++
      (([("requestID", .sc .absent), ("padding1", .sc .absent), ("_datums", .sc .absent)] : List (String × Tree)) ++ [])))) []
      (SimulationManagementFamilyPdu.members { pduType := 20, protocolFamily := 5 } ++ ([("requestID", requestID.2), ("padding1", .sc (.int 0)),
      ("_datums", .obj [("fixedDatumRecords", (fixedDatumRecords.2.or (.list [])).or (.list [])), ("variableDatumRecords", (variableDatumRecords.2.or (.list [])).or (.list []))])] : List (String × Tree))) := by
    unfold DataPdu.initHeap
    refine .bind (.inits (SimulationManagementFamilyPdu.inits 20 5 _)) ?_
    refine .bind (.arg (p := requestID) (by simp [attrOf_putAttr_isSome, attrOf, DataPdu.members, SimulationManagementFamilyPdu.members, Pdu.members, PduSuperclass.members])) ?_
    refine .bind (.inits (.set' (by simp [attrOf_putAttr_isSome, attrOf, DataPdu.members, SimulationManagementFamilyPdu.members, Pdu.members, PduSuperclass.members]))) ?_
    exact .cast (.lists (p := fixedDatumRecords) (q := variableDatumRecords) (k := fun a b => DatumSpecification.newHeap a b)
      (t := fun t u => .obj [("fixedDatumRecords", t.or (.list [])), ("variableDatumRecords", u.or (.list []))]) DatumSpecification.builds (by simp [attrOf_putAttr_isSome, attrOf, DataPdu.members, SimulationManagementFamilyPdu.members, Pdu.members, PduSuperclass.members]))
      (by simp [putAttr, DataPdu.members, SimulationManagementFamilyPdu.members, Pdu.members, PduSuperclass.members, Tree.ints, Tree.objs, Tree.optInt, Tree.optObj, Tree.intOr, Tree.optFloat, Tree.noneOr, IntercomParametersValue.tree])
  exact .new a

theorem Ctor.DataPdu.lawful : Ctor.DataPdu.Lawful := by
  intro kv kt e ok
  refine .select [("requestID", .int 0), ("fixedDatumRecords", .none), ("variableDatumRecords", .none)] (by simp) e ?_
  exact .cast (DataPdu.builds ((attrOf "requestID" kv).getD (.sc (.int 0)), (attrOf "requestID" kt).getD (.sc (.int 0))) ((attrOf "fixedDatumRecords" kv).getD (.sc (.none)), (attrOf "fixedDatumRecords" kt).getD (.sc (.none))) ((attrOf "variableDatumRecords" kv).getD (.sc (.none)), (attrOf "variableDatumRecords" kt).getD (.sc (.none)))) (by
    simp [Ctor.built, Ctor.DataPdu, HeapClass.DataPdu, InPlace.value, InPlace.DataPdu, Codec.DataPdu, DataPdu.init, Param.put, Tree.change, value_asIs, value_orFresh, value_copy, Tree.or_list, DataPdu.members, SimulationManagementFamilyPdu.members, Pdu.members, PduSuperclass.members, DatumSpecification.members, DatumSpecification.init, Tree.ints, Tree.objs, Tree.optInt, Tree.optObj, Tree.intOr, Tree.optFloat, Tree.noneOr, IntercomParametersValue.tree])

theorem FastEntityStatePdu.builds (site application entity forceId numberOfVariableParameters entityKind domain country category subcategory specific extra altEntityKind altDomain altCountry altCategory altSubcategory altSpecific altExtra xVelocity yVelocity zVelocity xLocation yLocation zLocation psi theta phi entityAppearance deadReckoningAlgorithm otherParameters xAcceleration yAcceleration zAcceleration xAngularVelocity yAngularVelocity zAngularVelocity marking capabilities variableParameters : Val × Tree) :
    Builds (FastEntityStatePdu.newHeap site.1 application.1 entity.1 forceId.1 numberOfVariableParameters.1 entityKind.1 domain.1 country.1 category.1 subcategory.1 specific.1 extra.1 altEntityKind.1 altDomain.1 altCountry.1 altCategory.1 altSubcategory.1 altSpecific.1 altExtra.1 xVelocity.1 yVelocity.1 zVelocity.1 xLocation.1 yLocation.1 zLocation.1 psi.1 theta.1 phi.1 entityAppearance.1 deadReckoningAlgorithm.1 otherParameters.1 xAcceleration.1 yAcceleration.1 zAcceleration.1 xAngularVelocity.1 yAngularVelocity.1 zAngularVelocity.1 marking.1 capabilities.1 variableParameters.1) [site, application, entity, forceId, numberOfVariableParameters, entityKind, domain, country, category, subcategory, specific, extra, altEntityKind, altDomain, altCountry, altCategory, altSubcategory, altSpecific, altExtra, xVelocity, yVelocity, zVelocity, xLocation, yLocation, zLocation, psi, theta, phi, entityAppearance, deadReckoningAlgorithm, otherParameters, xAcceleration, yAcceleration, zAcceleration, xAngularVelocity, yAngularVelocity, zAngularVelocity, marking, capabilities, variableParameters]
      (.obj (EntityInformationFamilyPdu.members { pduType := 1, protocolFamily := 1 } ++ ([("site", site.2), ("application", application.2), ("entity", entity.2), ("forceId", forceId.2),
      ("numberOfVariableParameters", numberOfVariableParameters.2), ("entityKind", entityKind.2),
      ("domain", domain.2), ("country", country.2), ("category", category.2), ("subcategory", subcategory.2),
      ("specific", specific.2), ("extra", extra.2), ("altEntityKind", altEntityKind.2),
      ("altDomain", altDomain.2), ("altCountry", altCountry.2), ("altCategory", altCategory.2),
      ("altSubcategory", altSubcategory.2), ("altSpecific", altSpecific.2), ("altExtra", altExtra.2),
      ("xVelocity", xVelocity.2), ("yVelocity", yVelocity.2), ("zVelocity", zVelocity.2),
      ("xLocation", xLocation.2), ("yLocation", yLocation.2), ("zLocation", zLocation.2), ("psi", psi.2),
      ("theta", theta.2), ("phi", phi.2), ("entityAppearance", entityAppearance.2),
      ("deadReckoningAlgorithm", deadReckoningAlgorithm.2),
      ("otherParameters", otherParameters.2.or (.list ((List.replicate 15 (0 : Int)).map fun v => .sc (.int v)))),
      ("xAcceleration", xAcceleration.2), ("yAcceleration", yAcceleration.2),
      ("zAcceleration", zAcceleration.2), ("xAngularVelocity", xAngularVelocity.2),
      ("yAngularVelocity", yAngularVelocity.2), ("zAngularVelocity", zAngularVelocity.2),
      ("marking", marking.2.or (.list ((List.replicate 12 (0 : Int)).map fun v => .sc (.int v)))),
      ("capabilities", capabilities.2), ("variableParameters", variableParameters.2.or (.list []))] : List (String × Tree)))) := by
  have a : Fills (fun self => FastEntityStatePdu.initHeap self site.1 application.1 entity.1 forceId.1 numberOfVariableParameters.1 entityKind.1 domain.1 country.1 category.1 subcategory.1 specific.1 extra.1 altEntityKind.1 altDomain.1 altCountry.1 altCategory.1 altSubcategory.1 altSpecific.1 altExtra.1 xVelocity.1 yVelocity.1 zVelocity.1 xLocation.1 yLocation.1 zLocation.1 psi.1 theta.1 phi.1 entityAppearance.1 deadReckoningAlgorithm.1 otherParameters.1 xAcceleration.1 yAcceleration.1 zAcceleration.1 xAngularVelocity.1 yAngularVelocity.1 zAngularVelocity.1 marking.1 capabilities.1 variableParameters.1) [site, application, entity, forceId, numberOfVariableParameters, entityKind, domain, country, category, subcategory, specific, extra, altEntityKind, altDomain, altCountry, altCategory, altSubcategory, altSpecific, altExtra, xVelocity, yVelocity, zVelocity, xLocation, yLocation, zLocation, psi, theta, phi, entityAppearance, deadReckoningAlgorithm, otherParameters, xAcceleration, yAcceleration, zAcceleration, xAngularVelocity, yAngularVelocity, zAngularVelocity, marking, capabilities, variableParameters]
      (([("protocolVersion", .sc .absent), ("exerciseID", .sc .absent), ("pduType", .sc (.int 1)), ("protocolFamily", .sc (.int 1)), ("timestamp", .sc .absent), ("length", .sc .absent)] : List (String × Tree)) ++
      (([("pduStatus", .sc .absent), ("padding", .sc .absent)] : List (String × Tree)) ++
      ([] ++
      (([("site", .sc .absent), ("application", .sc .absent), ("entity", .sc .absent), ("forceId", .sc .absent), ("numberOfVariableParameters", .sc .absent), ("entityKind", .sc .absent), ("domain", .sc .absent), ("country", .sc .absent), ("category", .sc .absent), ("subcategory", .sc .absent), ("specific", .sc .absent), ("extra", .sc .absent), ("altEntityKind", .sc .absent), ("altDomain", .sc .absent), ("altCountry", .sc .absent), ("altCategory", .sc .absent), ("altSubcategory", .sc .absent), ("altSpecific", .sc .absent), ("altExtra", .sc .absent), ("xVelocity", .sc .absent), ("yVelocity", .sc .absent), ("zVelocity", .sc .absent), ("xLocation", .sc .absent), ("yLocation", .sc .absent), ("zLocation", .sc .absent), ("psi", .sc .absent), ("theta", .sc .absent), ("phi", .sc .absent), ("entityAppearance", .sc .absent), ("deadReckoningAlgorithm", .sc .absent), ("otherParameters", .sc .absent), ("xAcceleration", .sc .absent), ("yAcceleration", .sc .absent), ("zAcceleration", .sc .absent), ("xAngularVelocity", .sc .absent), ("yAngularVelocity", .sc .absent), ("zAngularVelocity", .sc .absent), ("marking", .sc .absent), ("capabilities", .sc .absent), ("variableParameters", .sc .absent)] : List (String × Tree)) ++ [])))) []
      (EntityInformationFamilyPdu.members { pduType := 1, protocolFamily := 1 } ++ ([("site", site.2), ("application", application.2), ("entity", entity.2), ("forceId", forceId.2),
      ("numberOfVariableParameters", numberOfVariableParameters.2), ("entityKind", entityKind.2),
      ("domain", domain.2), ("country", country.2), ("category", category.2), ("subcategory", subcategory.2),
      ("specific", specific.2), ("extra", extra.2), ("altEntityKind", altEntityKind.2),
      ("altDomain", altDomain.2), ("altCountry", altCountry.2), ("altCategory", altCategory.2),
      ("altSubcategory", altSubcategory.2), ("altSpecific", altSpecific.2), ("altExtra", altExtra.2),
      ("xVelocity", xVelocity.2), ("yVelocity", yVelocity.2), ("zVelocity", zVelocity.2),
      ("xLocation", xLocation.2), ("yLocation", yLocation.2), ("zLocation", zLocation.2), ("psi", psi.2),
      ("theta", theta.2), ("phi", phi.2), ("entityAppearance", entityAppearance.2),
      ("deadReckoningAlgorithm", deadReckoningAlgorithm.2),
      ("otherParameters", otherParameters.2.or (.list ((List.replicate 15 (0 : Int)).map fun v => .sc (.int v)))),
      ("xAcceleration", xAcceleration.2), ("yAcceleration", yAcceleration.2),
      ("zAcceleration", zAcceleration.2), ("xAngularVelocity", xAngularVelocity.2),
      ("yAngularVelocity", yAngularVelocity.2), ("zAngularVelocity", zAngularVelocity.2),
      ("marking", marking.2.or (.list ((List.replicate 12 (0 : Int)).map fun v => .sc (.int v)))),
      ("capabilities", capabilities.2), ("variableParameters", variableParameters.2.or (.list []))] : List (String × Tree))) := by
    unfold FastEntityStatePdu.initHeap
    refine .bind (.inits (EntityInformationFamilyPdu.inits 1 1 _)) ?_
    refine .bind (.arg (p := site) (by simp [attrOf_putAttr_isSome, attrOf, FastEntityStatePdu.members, EntityInformationFamilyPdu.members, Pdu.members, PduSuperclass.members])) ?_
    refine .bind (.arg (p := application) (by simp [attrOf_putAttr_isSome, attrOf, FastEntityStatePdu.members, EntityInformationFamilyPdu.members, Pdu.members, PduSuperclass.members])) ?_
    refine .bind (.arg (p := entity) (by simp [attrOf_putAttr_isSome, attrOf, FastEntityStatePdu.members, EntityInformationFamilyPdu.members, Pdu.members, PduSuperclass.members])) ?_
    refine .bind (.arg (p := forceId) (by simp [attrOf_putAttr_isSome, attrOf, FastEntityStatePdu.members, EntityInformationFamilyPdu.members, Pdu.members, PduSuperclass.members])) ?_
    refine .bind (.arg (p := numberOfVariableParameters) (by simp [attrOf_putAttr_isSome, attrOf, FastEntityStatePdu.members, EntityInformationFamilyPdu.members, Pdu.members, PduSuperclass.members])) ?_
    refine .bind (.arg (p := entityKind) (by simp [attrOf_putAttr_isSome, attrOf, FastEntityStatePdu.members, EntityInformationFamilyPdu.members, Pdu.members, PduSuperclass.members])) ?_
    refine .bind (.arg (p := domain) (by simp [attrOf_putAttr_isSome, attrOf, FastEntityStatePdu.members, EntityInformationFamilyPdu.members, Pdu.members, PduSuperclass.members])) ?_
    refine .bind (.arg (p := country) (by simp [attrOf_putAttr_isSome, attrOf, FastEntityStatePdu.members, EntityInformationFamilyPdu.members, Pdu.members, PduSuperclass.members])) ?_
    refine .bind (.arg (p := category) (by simp [attrOf_putAttr_isSome, attrOf, FastEntityStatePdu.members, EntityInformationFamilyPdu.members, Pdu.members, PduSuperclass.members])) ?_
    refine .bind (.arg (p := subcategory) (by simp [attrOf_putAttr_isSome, attrOf, FastEntityStatePdu.members, EntityInformationFamilyPdu.members, Pdu.members, PduSuperclass.members])) ?_
    refine .bind (.arg (p := specific) (by simp [attrOf_putAttr_isSome, attrOf, FastEntityStatePdu.members, EntityInformationFamilyPdu.members, Pdu.members, PduSuperclass.members])) ?_
    refine .bind (.arg (p := extra) (by simp [attrOf_putAttr_isSome, attrOf, FastEntityStatePdu.members, EntityInformationFamilyPdu.members, Pdu.members, PduSuperclass.members])) ?_
    refine .bind (.arg (p := altEntityKind) (by simp [attrOf_putAttr_isSome, attrOf, FastEntityStatePdu.members, EntityInformationFamilyPdu.members, Pdu.members, PduSuperclass.members])) ?_
    refine .bind (.arg (p := altDomain) (by simp [attrOf_putAttr_isSome, attrOf, FastEntityStatePdu.members, EntityInformationFamilyPdu.members, Pdu.members, PduSuperclass.members])) ?_
    refine .bind (.arg (p := altCountry) (by simp [attrOf_putAttr_isSome, attrOf, FastEntityStatePdu.members, EntityInformationFamilyPdu.members, Pdu.members, PduSuperclass.members])) ?_
    refine .bind (.arg (p := altCategory) (by simp [attrOf_putAttr_isSome, attrOf, FastEntityStatePdu.members, EntityInformationFamilyPdu.members, Pdu.members, PduSuperclass.members])) ?_
    refine .bind (.arg (p := altSubcategory) (by simp [attrOf_putAttr_isSome, attrOf, FastEntityStatePdu.members, EntityInformationFamilyPdu.members, Pdu.members, PduSuperclass.members])) ?_
    refine .bind (.arg (p := altSpecific) (by simp [attrOf_putAttr_isSome, attrOf, FastEntityStatePdu.members, EntityInformationFamilyPdu.members, Pdu.members, PduSuperclass.members])) ?_
    refine .bind (.arg (p := altExtra) (by simp [attrOf_putAttr_isSome, attrOf, FastEntityStatePdu.members, EntityInformationFamilyPdu.members, Pdu.members, PduSuperclass.members])) ?_
    refine .bind (.arg (p := xVelocity) (by simp [attrOf_putAttr_isSome, attrOf, FastEntityStatePdu.members, EntityInformationFamilyPdu.members, Pdu.members, PduSuperclass.members])) ?_
    refine .bind (.arg (p := yVelocity) (by simp [attrOf_putAttr_isSome, attrOf, FastEntityStatePdu.members, EntityInformationFamilyPdu.members, Pdu.members, PduSuperclass.members])) ?_
    refine .bind (.arg (p := zVelocity) (by simp [attrOf_putAttr_isSome, attrOf, FastEntityStatePdu.members, EntityInformationFamilyPdu.members, Pdu.members, PduSuperclass.members])) ?_
    refine .bind (.arg (p := xLocation) (by simp [attrOf_putAttr_isSome, attrOf, FastEntityStatePdu.members, EntityInformationFamilyPdu.members, Pdu.members, PduSuperclass.members])) ?_
    refine .bind (.arg (p := yLocation) (by simp [attrOf_putAttr_isSome, attrOf, FastEntityStatePdu.members, EntityInformationFamilyPdu.members, Pdu.members, PduSuperclass.members])) ?_
    refine .bind (.arg (p := zLocation) (by simp [attrOf_putAttr_isSome, attrOf, FastEntityStatePdu.members, EntityInformationFamilyPdu.members, Pdu.members, PduSuperclass.members])) ?_
    refine .bind (.arg (p := psi) (by simp [attrOf_putAttr_isSome, attrOf, FastEntityStatePdu.members, EntityInformationFamilyPdu.members, Pdu.members, PduSuperclass.members])) ?_
    refine .bind (.arg (p := theta) (by simp [attrOf_putAttr_isSome, attrOf, FastEntityStatePdu.members, EntityInformationFamilyPdu.members, Pdu.members, PduSuperclass.members])) ?_
    refine .bind (.arg (p := phi) (by simp [attrOf_putAttr_isSome, attrOf, FastEntityStatePdu.members, EntityInformationFamilyPdu.members, Pdu.members, PduSuperclass.members])) ?_
    refine .bind (.arg (p := entityAppearance) (by simp [attrOf_putAttr_isSome, attrOf, FastEntityStatePdu.members, EntityInformationFamilyPdu.members, Pdu.members, PduSuperclass.members])) ?_
    refine .bind (.arg (p := deadReckoningAlgorithm) (by simp [attrOf_putAttr_isSome, attrOf, FastEntityStatePdu.members, EntityInformationFamilyPdu.members, Pdu.members, PduSuperclass.members])) ?_
    refine .bind (.or (p := otherParameters) (.zeros 15) (by simp [attrOf_putAttr_isSome, attrOf, FastEntityStatePdu.members, EntityInformationFamilyPdu.members, Pdu.members, PduSuperclass.members])) ?_
    refine .bind (.arg (p := xAcceleration) (by simp [attrOf_putAttr_isSome, attrOf, FastEntityStatePdu.members, EntityInformationFamilyPdu.members, Pdu.members, PduSuperclass.members])) ?_
    refine .bind (.arg (p := yAcceleration) (by simp [attrOf_putAttr_isSome, attrOf, FastEntityStatePdu.members, EntityInformationFamilyPdu.members, Pdu.members, PduSuperclass.members])) ?_
    refine .bind (.arg (p := zAcceleration) (by simp [attrOf_putAttr_isSome, attrOf, FastEntityStatePdu.members, EntityInformationFamilyPdu.members, Pdu.members, PduSuperclass.members])) ?_
    refine .bind (.arg (p := xAngularVelocity) (by simp [attrOf_putAttr_isSome, attrOf, FastEntityStatePdu.members, EntityInformationFamilyPdu.members, Pdu.members, PduSuperclass.members])) ?_
    refine .bind (.arg (p := yAngularVelocity) (by simp [attrOf_putAttr_isSome, attrOf, FastEntityStatePdu.members, EntityInformationFamilyPdu.members, Pdu.members, PduSuperclass.members])) ?_
    refine .bind (.arg (p := zAngularVelocity) (by simp [attrOf_putAttr_isSome, attrOf, FastEntityStatePdu.members, EntityInformationFamilyPdu.members, Pdu.members, PduSuperclass.members])) ?_
    refine .bind (.or (p := marking) (.zeros 12) (by simp [attrOf_putAttr_isSome, attrOf, FastEntityStatePdu.members, EntityInformationFamilyPdu.members, Pdu.members, PduSuperclass.members])) ?_
    refine .bind (.arg (p := capabilities) (by simp [attrOf_putAttr_isSome, attrOf, FastEntityStatePdu.members, EntityInformationFamilyPdu.members, Pdu.members, PduSuperclass.members])) ?_
    exact .cast (.or (p := variableParameters) .empty (by simp [attrOf_putAttr_isSome, attrOf, FastEntityStatePdu.members, EntityInformationFamilyPdu.members, Pdu.members, PduSuperclass.members]))
      (by simp [putAttr, FastEntityStatePdu.members, EntityInformationFamilyPdu.members, Pdu.members, PduSuperclass.members, Tree.ints, Tree.objs, Tree.optInt, Tree.optObj, Tree.intOr, Tree.optFloat, Tree.noneOr, IntercomParametersValue.tree])
  exact .new a

theorem Ctor.FastEntityStatePdu.lawful : Ctor.FastEntityStatePdu.Lawful := by
  intro kv kt e ok
  refine .select [("site", .int 0), ("application", .int 0), ("entity", .int 0), ("forceId", .int 0), ("numberOfVariableParameters", .int 0), ("entityKind", .int 0), ("domain", .int 0), ("country", .int 0), ("category", .int 0), ("subcategory", .int 0), ("specific", .int 0), ("extra", .int 0), ("altEntityKind", .int 0), ("altDomain", .int 0), ("altCountry", .int 0), ("altCategory", .int 0), ("altSubcategory", .int 0), ("altSpecific", .int 0), ("altExtra", .int 0), ("xVelocity", .float 0x0000000000000000), ("yVelocity", .float 0x0000000000000000), ("zVelocity", .float 0x0000000000000000), ("xLocation", .float 0x0000000000000000), ("yLocation", .float 0x0000000000000000), ("zLocation", .float 0x0000000000000000), ("psi", .float 0x0000000000000000), ("theta", .float 0x0000000000000000), ("phi", .float 0x0000000000000000), ("entityAppearance", .int 0), ("deadReckoningAlgorithm", .int 0), ("otherParameters", .none), ("xAcceleration", .float 0x0000000000000000), ("yAcceleration", .float 0x0000000000000000), ("zAcceleration", .float 0x0000000000000000), ("xAngularVelocity", .float 0x0000000000000000), ("yAngularVelocity", .float 0x0000000000000000), ("zAngularVelocity", .float 0x0000000000000000), ("marking", .none), ("capabilities", .int 0), ("variableParameters", .none)] (by simp) e ?_
  exact .cast (FastEntityStatePdu.builds ((attrOf "site" kv).getD (.sc (.int 0)), (attrOf "site" kt).getD (.sc (.int 0))) ((attrOf "application" kv).getD (.sc (.int 0)), (attrOf "application" kt).getD (.sc (.int 0))) ((attrOf "entity" kv).getD (.sc (.int 0)), (attrOf "entity" kt).getD (.sc (.int 0))) ((attrOf "forceId" kv).getD (.sc (.int 0)), (attrOf "forceId" kt).getD (.sc (.int 0))) ((attrOf "numberOfVariableParameters" kv).getD (.sc (.int 0)), (attrOf "numberOfVariableParameters" kt).getD (.sc (.int 0))) ((attrOf "entityKind" kv).getD (.sc (.int 0)), (attrOf "entityKind" kt).getD (.sc (.int 0))) ((attrOf "domain" kv).getD (.sc (.int 0)), (attrOf "domain" kt).getD (.sc (.int 0))) ((attrOf "country" kv).getD (.sc (.int 0)), (attrOf "country" kt).getD (.sc (.int 0))) ((attrOf "category" kv).getD (.sc (.int 0)), (attrOf "category" kt).getD (.sc (.int 0))) ((attrOf "subcategory" kv).getD (.sc (.int 0)), (attrOf "subcategory" kt).getD (.sc (.int 0))) ((attrOf "specific" kv).getD (.sc (.int 0)), (attrOf "specific" kt).getD (.sc (.int 0))) ((attrOf "extra" kv).getD (.sc (.int 0)), (attrOf "extra" kt).getD (.sc (.int 0))) ((attrOf "altEntityKind" kv).getD (.sc (.int 0)), (attrOf "altEntityKind" kt).getD (.sc (.int 0))) ((attrOf "altDomain" kv).getD (.sc (.int 0)), (attrOf "altDomain" kt).getD (.sc (.int 0))) ((attrOf "altCountry" kv).getD (.sc (.int 0)), (attrOf "altCountry" kt).getD (.sc (.int 0))) ((attrOf "altCategory" kv).getD (.sc (.int 0)), (attrOf "altCategory" kt).getD (.sc (.int 0))) ((attrOf "altSubcategory" kv).getD (.sc (.int 0)), (attrOf "altSubcategory" kt).getD (.sc (.int 0))) ((attrOf "altSpecific" kv).getD (.sc (.int 0)), (attrOf "altSpecific" kt).getD (.sc (.int 0))) ((attrOf "altExtra" kv).getD (.sc (.int 0)), (attrOf "altExtra" kt).getD (.sc (.int 0))) ((attrOf "xVelocity" kv).getD (.sc (.float 0x0000000000000000)), (attrOf "xVelocity" kt).getD (.sc (.float 0x0000000000000000))) ((attrOf "yVelocity" kv).getD (.sc (.float 0x0000000000000000)), (attrOf "yVelocity" kt).getD (.sc (.float 0x0000000000000000))) ((attrOf "zVelocity" kv).getD (.sc (.float 0x0000000000000000)), (attrOf "zVelocity" kt).getD (.sc (.float 0x0000000000000000))) ((attrOf "xLocation" kv).getD (.sc (.float 0x0000000000000000)), (attrOf "xLocation" kt).getD (.sc (.float 0x0000000000000000))) ((attrOf "yLocation" kv).getD (.sc (.float 0x0000000000000000)), (attrOf "yLocation" kt).getD (.sc (.float 0x0000000000000000))) ((attrOf "zLocation" kv).getD (.sc (.float 0x0000000000000000)), (attrOf "zLocation" kt).getD (.sc (.float 0x0000000000000000))) ((attrOf "psi" kv).getD (.sc (.float 0x0000000000000000)), (attrOf "psi" kt).getD (.sc (.float 0x0000000000000000))) ((attrOf "theta" kv).getD (.sc (.float 0x0000000000000000)), (attrOf "theta" kt).getD (.sc (.float 0x0000000000000000))) ((attrOf "phi" kv).getD (.sc (.float 0x0000000000000000)), (attrOf "phi" kt).getD (.sc (.float 0x0000000000000000))) ((attrOf "entityAppearance" kv).getD (.sc (.int 0)), (attrOf "entityAppearance" kt).getD (.sc (.int 0))) ((attrOf "deadReckoningAlgorithm" kv).getD (.sc (.int 0)), (attrOf "deadReckoningAlgorithm" kt).getD (.sc (.int 0))) ((attrOf "otherParameters" kv).getD (.sc (.none)), (attrOf "otherParameters" kt).getD (.sc (.none))) ((attrOf "xAcceleration" kv).getD (.sc (.float 0x0000000000000000)), (attrOf "xAcceleration" kt).getD (.sc (.float 0x0000000000000000))) ((attrOf "yAcceleration" kv).getD (.sc (.float 0x0000000000000000)), (attrOf "yAcceleration" kt).getD (.sc (.float 0x0000000000000000))) ((attrOf "zAcceleration" kv).getD (.sc (.float 0x0000000000000000)), (attrOf "zAcceleration" kt).getD (.sc (.float 0x0000000000000000))) ((attrOf "xAngularVelocity" kv).getD (.sc (.float 0x0000000000000000)), (attrOf "xAngularVelocity" kt).getD (.sc (.float 0x0000000000000000))) ((attrOf "yAngularVelocity" kv).getD (.sc (.float 0x0000000000000000)), (attrOf "yAngularVelocity" kt).getD (.sc (.float 0x0000000000000000))) ((attrOf "zAngularVelocity" kv).getD (.sc (.float 0x0000000000000000)), (attrOf "zAngularVelocity" kt).getD (.sc (.float 0x0000000000000000))) ((attrOf "marking" kv).getD (.sc (.none)), (attrOf "marking" kt).getD (.sc (.none))) ((attrOf "capabilities" kv).getD (.sc (.int 0)), (attrOf "capabilities" kt).getD (.sc (.int 0))) ((attrOf "variableParameters" kv).getD (.sc (.none)), (attrOf "variableParameters" kt).getD (.sc (.none)))) (by
    simp [Ctor.built, Ctor.FastEntityStatePdu, HeapClass.FastEntityStatePdu, InPlace.value, InPlace.FastEntityStatePdu, Codec.FastEntityStatePdu, FastEntityStatePdu.init, Param.put, Tree.change, value_asIs, value_orFresh, value_copy, Tree.or_list, FastEntityStatePdu.members, EntityInformationFamilyPdu.members, Pdu.members, PduSuperclass.members, Tree.ints, Tree.objs, Tree.optInt, Tree.optObj, Tree.intOr, Tree.optFloat, Tree.noneOr, IntercomParametersValue.tree])

theorem AcknowledgeReliablePdu.builds (acknowledgeFlag responseFlag requestID : Val × Tree) :
    Builds (AcknowledgeReliablePdu.newHeap acknowledgeFlag.1 responseFlag.1 requestID.1) [acknowledgeFlag, responseFlag, requestID]
      (.obj (SimulationManagementWithReliabilityFamilyPdu.members { pduType := 55, protocolFamily := 10 } ++ ([("acknowledgeFlag", acknowledgeFlag.2), ("responseFlag", responseFlag.2), ("requestID", requestID.2)] : List (String × Tree)))) := by
  have a : Fills (fun self => AcknowledgeReliablePdu.initHeap self acknowledgeFlag.1 responseFlag.1 requestID.1) [acknowledgeFlag, responseFlag, requestID]
      (([("protocolVersion", .sc .absent), ("exerciseID", .sc .absent), ("pduType", .sc (.int 55)), ("protocolFamily", .sc (.int 10)), ("timestamp", .sc .absent), ("length", .sc .absent)] : List (String × Tree)) ++
      (([("pduStatus", .sc .absent), ("padding", .sc .absent)] : List (String × Tree)) ++
      (([("originatingEntityID", .sc .absent), ("receivingEntityID", .sc .absent)] : List (String × Tree)) ++
      (([("acknowledgeFlag", .sc .absent), ("responseFlag", .sc .absent), ("requestID", .sc .absent)] : List (String × Tree)) ++ [])))) []
      (SimulationManagementWithReliabilityFamilyPdu.members { pduType := 55, protocolFamily := 10 } ++ ([("acknowledgeFlag", acknowledgeFlag.2), ("responseFlag", responseFlag.2), ("requestID", requestID.2)] : List (String × Tree))) := by
    unfold AcknowledgeReliablePdu.initHeap
    refine .bind (.inits (SimulationManagementWithReliabilityFamilyPdu.inits 55 10 _)) ?_
    refine .bind (.arg (p := acknowledgeFlag) (by simp [attrOf_putAttr_isSome, attrOf, AcknowledgeReliablePdu.members, SimulationManagementWithReliabilityFamilyPdu.members, Pdu.members, PduSuperclass.members])) ?_
    refine .bind (.arg (p := responseFlag) (by simp [attrOf_putAttr_isSome, attrOf, AcknowledgeReliablePdu.members, SimulationManagementWithReliabilityFamilyPdu.members, Pdu.members, PduSuperclass.members])) ?_
    exact .cast (.arg (p := requestID) (by simp [attrOf_putAttr_isSome, attrOf, AcknowledgeReliablePdu.members, SimulationManagementWithReliabilityFamilyPdu.members, Pdu.members, PduSuperclass.members]))
      (by simp [putAttr, AcknowledgeReliablePdu.members, SimulationManagementWithReliabilityFamilyPdu.members, Pdu.members, PduSuperclass.members, Tree.ints, Tree.objs, Tree.optInt, Tree.optObj, Tree.intOr, Tree.optFloat, Tree.noneOr, IntercomParametersValue.tree])
  exact .new a

theorem Ctor.AcknowledgeReliablePdu.lawful : Ctor.AcknowledgeReliablePdu.Lawful := by
  intro kv kt e ok
  refine .select [("acknowledgeFlag", .int 0), ("responseFlag", .int 0), ("requestID", .int 0)] (by simp) e ?_
  exact .cast (AcknowledgeReliablePdu.builds ((attrOf "acknowledgeFlag" kv).getD (.sc (.int 0)), (attrOf "acknowledgeFlag" kt).getD (.sc (.int 0))) ((attrOf "responseFlag" kv).getD (.sc (.int 0)), (attrOf "responseFlag" kt).getD (.sc (.int 0))) ((attrOf "requestID" kv).getD (.sc (.int 0)), (attrOf "requestID" kt).getD (.sc (.int 0)))) (by
    simp [Ctor.built, Ctor.AcknowledgeReliablePdu, HeapClass.AcknowledgeReliablePdu, InPlace.value, InPlace.AcknowledgeReliablePdu, Codec.AcknowledgeReliablePdu, AcknowledgeReliablePdu.init, Param.put, Tree.change, value_asIs, value_orFresh, value_copy, Tree.or_list, AcknowledgeReliablePdu.members, SimulationManagementWithReliabilityFamilyPdu.members, Pdu.members, PduSuperclass.members, Tree.ints, Tree.objs, Tree.optInt, Tree.optObj, Tree.intOr, Tree.optFloat, Tree.noneOr, IntercomParametersValue.tree])

theorem StartResumeReliablePdu.builds (realWorldTime simulationTime requiredReliabilityService requestID : Val × Tree) :
    Builds (StartResumeReliablePdu.newHeap realWorldTime.1 simulationTime.1 requiredReliabilityService.1 requestID.1) [realWorldTime, simulationTime, requiredReliabilityService, requestID]
      (.obj (SimulationManagementWithReliabilityFamilyPdu.members { pduType := 53, protocolFamily := 10 } ++ ([("realWorldTime", realWorldTime.2.or (.obj (ClockTime.members ClockTime.init))),
      ("simulationTime", simulationTime.2.or (.obj (ClockTime.members ClockTime.init))),
      ("requiredReliabilityService", requiredReliabilityService.2), ("pad1", .sc (.int 0)),
      ("pad2", .sc (.int 0)), ("requestID", requestID.2)] : List (String × Tree)))) := by
  have a : Fills (fun self => StartResumeReliablePdu.initHeap self realWorldTime.1 simulationTime.1 requiredReliabilityService.1 requestID.1) [realWorldTime, simulationTime, requiredReliabilityService, requestID]
      (([("protocolVersion", .sc .absent), ("exerciseID", .sc .absent), ("pduType", .sc (.int 53)), ("protocolFamily", .sc (.int 10)), ("timestamp", .sc .absent), ("length", .sc .absent)] : List (String × Tree)) ++
      (([("pduStatus", .sc .absent), ("padding", .sc .absent)] : List (String × Tree)) ++
      (([("originatingEntityID", .sc .absent), ("receivingEntityID", .sc .absent)] : List (String × Tree)) ++
      (([("realWorldTime", .sc .absent), ("simulationTime", .sc .absent), ("requiredReliabilityService", .sc .absent), ("pad1", .sc .absent), ("pad2", .sc .absent), ("requestID", .sc .absent)] : List (String × Tree)) ++ [])))) []
      (SimulationManagementWithReliabilityFamilyPdu.members { pduType := 53, protocolFamily := 10 } ++ ([("realWorldTime", realWorldTime.2.or (.obj (ClockTime.members ClockTime.init))),
      ("simulationTime", simulationTime.2.or (.obj (ClockTime.members ClockTime.init))),
      ("requiredReliabilityService", requiredReliabilityService.2), ("pad1", .sc (.int 0)),
      ("pad2", .sc (.int 0)), ("requestID", requestID.2)] : List (String × Tree))) := by
    unfold StartResumeReliablePdu.initHeap
    refine .bind (.inits (SimulationManagementWithReliabilityFamilyPdu.inits 53 10 _)) ?_
    refine .bind (.or (p := realWorldTime) ClockTime.makesNew (by simp [attrOf_putAttr_isSome, attrOf, StartResumeReliablePdu.members, SimulationManagementWithReliabilityFamilyPdu.members, Pdu.members, PduSuperclass.members])) ?_
    refine .bind (.or (p := simulationTime) ClockTime.makesNew (by simp [attrOf_putAttr_isSome, attrOf, StartResumeReliablePdu.members, SimulationManagementWithReliabilityFamilyPdu.members, Pdu.members, PduSuperclass.members])) ?_
    refine .bind (.arg (p := requiredReliabilityService) (by simp [attrOf_putAttr_isSome, attrOf, StartResumeReliablePdu.members, SimulationManagementWithReliabilityFamilyPdu.members, Pdu.members, PduSuperclass.members])) ?_
    refine .bind (.inits (.set' (by simp [attrOf_putAttr_isSome, attrOf, StartResumeReliablePdu.members, SimulationManagementWithReliabilityFamilyPdu.members, Pdu.members, PduSuperclass.members]))) ?_
    refine .bind (.inits (.set' (by simp [attrOf_putAttr_isSome, attrOf, StartResumeReliablePdu.members, SimulationManagementWithReliabilityFamilyPdu.members, Pdu.members, PduSuperclass.members]))) ?_
    exact .cast (.arg (p := requestID) (by simp [attrOf_putAttr_isSome, attrOf, StartResumeReliablePdu.members, SimulationManagementWithReliabilityFamilyPdu.members, Pdu.members, PduSuperclass.members]))
      (by simp [putAttr, StartResumeReliablePdu.members, SimulationManagementWithReliabilityFamilyPdu.members, Pdu.members, PduSuperclass.members, Tree.ints, Tree.objs, Tree.optInt, Tree.optObj, Tree.intOr, Tree.optFloat, Tree.noneOr, IntercomParametersValue.tree])
  exact .new a

theorem Ctor.StartResumeReliablePdu.lawful : Ctor.StartResumeReliablePdu.Lawful := by
  intro kv kt e ok
  refine .select [("realWorldTime", .none), ("simulationTime", .none), ("requiredReliabilityService", .int 0), ("requestID", .int 0)] (by simp) e ?_
  exact .cast (StartResumeReliablePdu.builds ((attrOf "realWorldTime" kv).getD (.sc (.none)), (attrOf "realWorldTime" kt).getD (.sc (.none))) ((attrOf "simulationTime" kv).getD (.sc (.none)), (attrOf "simulationTime" kt).getD (.sc (.none))) ((attrOf "requiredReliabilityService" kv).getD (.sc (.int 0)), (attrOf "requiredReliabilityService" kt).getD (.sc (.int 0))) ((attrOf "requestID" kv).getD (.sc (.int 0)), (attrOf "requestID" kt).getD (.sc (.int 0)))) (by
    simp [Ctor.built, Ctor.StartResumeReliablePdu, HeapClass.StartResumeReliablePdu, InPlace.value, InPlace.StartResumeReliablePdu, Codec.StartResumeReliablePdu, StartResumeReliablePdu.init, Param.put, Tree.change, value_asIs, value_orFresh, value_copy, Tree.or_list, StartResumeReliablePdu.members, SimulationManagementWithReliabilityFamilyPdu.members, Pdu.members, PduSuperclass.members, Tree.ints, Tree.objs, Tree.optInt, Tree.optObj, Tree.intOr, Tree.optFloat, Tree.noneOr, IntercomParametersValue.tree])

theorem ArealObjectStatePdu.builds (objectID referencedObjectID updateNumber forceId modifications objectType specificObjectAppearance generalObjectAppearance requesterID receivingID objectLocation : Val × Tree) :
    Builds (ArealObjectStatePdu.newHeap objectID.1 referencedObjectID.1 updateNumber.1 forceId.1 modifications.1 objectType.1 specificObjectAppearance.1 generalObjectAppearance.1 requesterID.1 receivingID.1 objectLocation.1) [objectID, referencedObjectID, updateNumber, forceId, modifications, objectType, specificObjectAppearance, generalObjectAppearance, requesterID, receivingID, objectLocation]
      (.obj (SyntheticEnvironmentFamilyPdu.members { pduType := 45, protocolFamily := 9 } ++ ([("objectID", objectID.2.or (.obj (EntityIdentifier.members EntityIdentifier.init))),
      ("referencedObjectID", referencedObjectID.2.or (.obj (EntityIdentifier.members EntityIdentifier.init))),
      ("updateNumber", updateNumber.2), ("forceID", forceId.2), ("modifications", modifications.2),
      ("objectType", objectType.2.or (.obj (ObjectType.members ObjectType.init))),
      ("specificObjectAppearance", specificObjectAppearance.2),
      ("generalObjectAppearance", generalObjectAppearance.2),
      ("requesterID", requesterID.2.or (.obj (SimulationAddress.members SimulationAddress.init))),
      ("receivingID", receivingID.2.or (.obj (SimulationAddress.members SimulationAddress.init))),
      ("objectLocation", objectLocation.2.or (.list []))] : List (String × Tree)))) := by
  have a : Fills (fun self => ArealObjectStatePdu.initHeap self objectID.1 referencedObjectID.1 updateNumber.1 forceId.1 modifications.1 objectType.1 specificObjectAppearance.1 generalObjectAppearance.1 requesterID.1 receivingID.1 objectLocation.1) [objectID, referencedObjectID, updateNumber, forceId, modifications, objectType, specificObjectAppearance, generalObjectAppearance, requesterID, receivingID, objectLocation]
      (([("protocolVersion", .sc .absent), ("exerciseID", .sc .absent), ("pduType", .sc (.int 45)), ("protocolFamily", .sc (.int 9)), ("timestamp", .sc .absent), ("length", .sc .absent)] : List (String × Tree)) ++
      (([("pduStatus", .sc .absent), ("padding", .sc .absent)] : List (String × Tree)) ++
      ([] ++
      (([("objectID", .sc .absent), ("referencedObjectID", .sc .absent), ("updateNumber", .sc .absent), ("forceID", .sc .absent), ("modifications", .sc .absent), ("objectType", .sc .absent), ("specificObjectAppearance", .sc .absent), ("generalObjectAppearance", .sc .absent), ("requesterID", .sc .absent), ("receivingID", .sc .absent), ("objectLocation", .sc .absent)] : List (String × Tree)) ++ [])))) []
      (SyntheticEnvironmentFamilyPdu.members { pduType := 45, protocolFamily := 9 } ++ ([("objectID", objectID.2.or (.obj (EntityIdentifier.members EntityIdentifier.init))),
      ("referencedObjectID", referencedObjectID.2.or (.obj (EntityIdentifier.members EntityIdentifier.init))),
      ("updateNumber", updateNumber.2), ("forceID", forceId.2), ("modifications", modifications.2),
      ("objectType", objectType.2.or (.obj (ObjectType.members ObjectType.init))),
      ("specificObjectAppearance", specificObjectAppearance.2),
      ("generalObjectAppearance", generalObjectAppearance.2),
      ("requesterID", requesterID.2.or (.obj (SimulationAddress.members SimulationAddress.init))),
      ("receivingID", receivingID.2.or (.obj (SimulationAddress.members SimulationAddress.init))),
      ("objectLocation", objectLocation.2.or (.list []))] : List (String × Tree))) := by
    unfold ArealObjectStatePdu.initHeap
    refine .bind (.inits (SyntheticEnvironmentFamilyPdu.inits 45 9 _)) ?_
    refine .bind (.or (p := objectID) EntityIdentifier.makesNew (by simp [attrOf_putAttr_isSome, attrOf, ArealObjectStatePdu.members, SyntheticEnvironmentFamilyPdu.members, Pdu.members, PduSuperclass.members])) ?_
    refine .bind (.or (p := referencedObjectID) EntityIdentifier.makesNew (by simp [attrOf_putAttr_isSome, attrOf, ArealObjectStatePdu.members, SyntheticEnvironmentFamilyPdu.members, Pdu.members, PduSuperclass.members])) ?_
    refine .bind (.arg (p := updateNumber) (by simp [attrOf_putAttr_isSome, attrOf, ArealObjectStatePdu.members, SyntheticEnvironmentFamilyPdu.members, Pdu.members, PduSuperclass.members])) ?_
    refine .bind (.arg (p := forceId) (by simp [attrOf_putAttr_isSome, attrOf, ArealObjectStatePdu.members, SyntheticEnvironmentFamilyPdu.members, Pdu.members, PduSuperclass.members])) ?_
    refine .bind (.arg (p := modifications) (by simp [attrOf_putAttr_isSome, attrOf, ArealObjectStatePdu.members, SyntheticEnvironmentFamilyPdu.members, Pdu.members, PduSuperclass.members])) ?_
    refine .bind (.or (p := objectType) ObjectType.makesNew (by simp [attrOf_putAttr_isSome, attrOf, ArealObjectStatePdu.members, SyntheticEnvironmentFamilyPdu.members, Pdu.members, PduSuperclass.members])) ?_
    refine .bind (.arg (p := specificObjectAppearance) (by simp [attrOf_putAttr_isSome, attrOf, ArealObjectStatePdu.members, SyntheticEnvironmentFamilyPdu.members, Pdu.members, PduSuperclass.members])) ?_
    refine .bind (.arg (p := generalObjectAppearance) (by simp [attrOf_putAttr_isSome, attrOf, ArealObjectStatePdu.members, SyntheticEnvironmentFamilyPdu.members, Pdu.members, PduSuperclass.members])) ?_
    refine .bind (.or (p := requesterID) SimulationAddress.makesNew (by simp [attrOf_putAttr_isSome, attrOf, ArealObjectStatePdu.members, SyntheticEnvironmentFamilyPdu.members, Pdu.members, PduSuperclass.members])) ?_
    refine .bind (.or (p := receivingID) SimulationAddress.makesNew (by simp [attrOf_putAttr_isSome, attrOf, ArealObjectStatePdu.members, SyntheticEnvironmentFamilyPdu.members, Pdu.members, PduSuperclass.members])) ?_
    exact .cast (.or (p := objectLocation) .empty (by simp [attrOf_putAttr_isSome, attrOf, ArealObjectStatePdu.members, SyntheticEnvironmentFamilyPdu.members, Pdu.members, PduSuperclass.members]))
      (by simp [putAttr, ArealObjectStatePdu.members, SyntheticEnvironmentFamilyPdu.members, Pdu.members, PduSuperclass.members, Tree.ints, Tree.objs, Tree.optInt, Tree.optObj, Tree.intOr, Tree.optFloat, Tree.noneOr, IntercomParametersValue.tree])
  exact .new a

theorem Ctor.ArealObjectStatePdu.lawful : Ctor.ArealObjectStatePdu.Lawful := by
  intro kv kt e ok
  refine .select [("objectID", .none), ("referencedObjectID", .none), ("updateNumber", .int 0), ("forceId", .int 0), ("modifications", .int 0), ("objectType", .none), ("specificObjectAppearance", .int 0), ("generalObjectAppearance", .int 0), ("requesterID", .none), ("receivingID", .none), ("objectLocation", .none)] (by simp) e ?_
  exact .cast (ArealObjectStatePdu.builds ((attrOf "objectID" kv).getD (.sc (.none)), (attrOf "objectID" kt).getD (.sc (.none))) ((attrOf "referencedObjectID" kv).getD (.sc (.none)), (attrOf "referencedObjectID" kt).getD (.sc (.none))) ((attrOf "updateNumber" kv).getD (.sc (.int 0)), (attrOf "updateNumber" kt).getD (.sc (.int 0))) ((attrOf "forceId" kv).getD (.sc (.int 0)), (attrOf "forceId" kt).getD (.sc (.int 0))) ((attrOf "modifications" kv).getD (.sc (.int 0)), (attrOf "modifications" kt).getD (.sc (.int 0))) ((attrOf "objectType" kv).getD (.sc (.none)), (attrOf "objectType" kt).getD (.sc (.none))) ((attrOf "specificObjectAppearance" kv).getD (.sc (.int 0)), (attrOf "specificObjectAppearance" kt).getD (.sc (.int 0))) ((attrOf "generalObjectAppearance" kv).getD (.sc (.int 0)), (attrOf "generalObjectAppearance" kt).getD (.sc (.int 0))) ((attrOf "requesterID" kv).getD (.sc (.none)), (attrOf "requesterID" kt).getD (.sc (.none))) ((attrOf "receivingID" kv).getD (.sc (.none)), (attrOf "receivingID" kt).getD (.sc (.none))) ((attrOf "objectLocation" kv).getD (.sc (.none)), (attrOf "objectLocation" kt).getD (.sc (.none)))) (by
    simp [Ctor.built, Ctor.ArealObjectStatePdu, HeapClass.ArealObjectStatePdu, InPlace.value, InPlace.ArealObjectStatePdu, Codec.ArealObjectStatePdu, ArealObjectStatePdu.init, Param.put, Tree.change, value_asIs, value_orFresh, value_copy, Tree.or_list, ArealObjectStatePdu.members, SyntheticEnvironmentFamilyPdu.members, Pdu.members, PduSuperclass.members, Tree.ints, Tree.objs, Tree.optInt, Tree.optObj, Tree.intOr, Tree.optFloat, Tree.noneOr, IntercomParametersValue.tree])

theorem DataQueryReliablePdu.builds (requiredReliabilityService requestID timeInterval fixedDatumIDs variableDatumIDs : Val × Tree) :
    Builds (DataQueryReliablePdu.newHeap requiredReliabilityService.1 requestID.1 timeInterval.1 fixedDatumIDs.1 variableDatumIDs.1) [requiredReliabilityService, requestID, timeInterval, fixedDatumIDs, variableDatumIDs]
      (.obj (SimulationManagementWithReliabilityFamilyPdu.members { pduType := 58, protocolFamily := 10 } ++ ([("requiredReliabilityService", requiredReliabilityService.2), ("pad1", .sc (.int 0)),
      ("pad2", .sc (.int 0)), ("requestID", requestID.2), ("timeInterval", timeInterval.2),
      ("_dataQuery", .obj [("fixedDatumIDs", (fixedDatumIDs.2.or (.list [])).or (.list [])), ("variableDatumIDs", (variableDatumIDs.2.or (.list [])).or (.list []))])] : List (String × Tree)))) := by
  have a : Fills (fun self => DataQueryReliablePdu.initHeap self requiredReliabilityService.1 requestID.1 timeInterval.1 fixedDatumIDs.1 variableDatumIDs.1) [requiredReliabilityService, requestID, timeInterval, fixedDatumIDs, variableDatumIDs]
      (([("protocolVersion", .sc .absent), ("exerciseID", .sc .absent), ("pduType", .sc (.int 58)), ("protocolFamily", .sc (.int 10)), ("timestamp", .sc .absent), ("length", .sc .absent)] : List (String × Tree)) ++
      (([("pduStatus", .sc .absent), ("padding", .sc .absent)] : List (String × Tree)) ++
      (([("originatingEntityID", .sc .absent), ("receivingEntityID", .sc .absent)] : List (String × Tree)) ++
      (([("requiredReliabilityService", .sc .absent), ("pad1", .sc .absent), ("pad2", .sc .absent), ("requestID", .sc .absent), ("timeInterval", .sc .absent), ("_dataQuery", .sc .absent)] : List (String × Tree)) ++ [])))) []
      (SimulationManagementWithReliabilityFamilyPdu.members { pduType := 58, protocolFamily := 10 } ++ ([("requiredReliabilityService", requiredReliabilityService.2), ("pad1", .sc (.int 0)),
      ("pad2", .sc (.int 0)), ("requestID", requestID.2), ("timeInterval", timeInterval.2),
      ("_dataQuery", .obj [("fixedDatumIDs", (fixedDatumIDs.2.or (.list [])).or (.list [])), ("variableDatumIDs", (variableDatumIDs.2.or (.list [])).or (.list []))])] : List (String × Tree))) := by
    unfold DataQueryReliablePdu.initHeap
    refine .bind (.inits (SimulationManagementWithReliabilityFamilyPdu.inits 58 10 _)) ?_
    refine .bind (.arg (p := requiredReliabilityService) (by simp [attrOf_putAttr_isSome, attrOf, DataQueryReliablePdu.members, SimulationManagementWithReliabilityFamilyPdu.members, Pdu.members, PduSuperclass.members])) ?_
    refine .bind (.inits (.set' (by simp [attrOf_putAttr_isSome, attrOf, DataQueryReliablePdu.members, SimulationManagementWithReliabilityFamilyPdu.members, Pdu.members, PduSuperclass.members]))) ?_
    refine .bind (.inits (.set' (by simp [attrOf_putAttr_isSome, attrOf, DataQueryReliablePdu.members, SimulationManagementWithReliabilityFamilyPdu.members, Pdu.members, PduSuperclass.members]))) ?_
    refine .bind (.arg (p := requestID) (by simp [attrOf_putAttr_isSome, attrOf, DataQueryReliablePdu.members, SimulationManagementWithReliabilityFamilyPdu.members, Pdu.members, PduSuperclass.members])) ?_
    refine .bind (.arg (p := timeInterval) (by simp [attrOf_putAttr_isSome, attrOf, DataQueryReliablePdu.members, SimulationManagementWithReliabilityFamilyPdu.members, Pdu.members, PduSuperclass.members])) ?_
    exact .cast (.lists (p := fixedDatumIDs) (q := variableDatumIDs) (k := fun a b => DataQueryDatumSpecification.newHeap a b)
      (t := fun t u => .obj [("fixedDatumIDs", t.or (.list [])), ("variableDatumIDs", u.or (.list []))]) DataQueryDatumSpecification.builds (by simp [attrOf_putAttr_isSome, attrOf, DataQueryReliablePdu.members, SimulationManagementWithReliabilityFamilyPdu.members, Pdu.members, PduSuperclass.members]))
      (by simp [putAttr, DataQueryReliablePdu.members, SimulationManagementWithReliabilityFamilyPdu.members, Pdu.members, PduSuperclass.members, Tree.ints, Tree.objs, Tree.optInt, Tree.optObj, Tree.intOr, Tree.optFloat, Tree.noneOr, IntercomParametersValue.tree])
  exact .new a

theorem Ctor.DataQueryReliablePdu.lawful : Ctor.DataQueryReliablePdu.Lawful := by
  intro kv kt e ok
  refine .select [("requiredReliabilityService", .int 0), ("requestID", .int 0), ("timeInterval", .int 0), ("fixedDatumIDs", .none), ("variableDatumIDs", .none)] (by simp) e ?_
  exact .cast (DataQueryReliablePdu.builds ((attrOf "requiredReliabilityService" kv).getD (.sc (.int 0)), (attrOf "requiredReliabilityService" kt).getD (.sc (.int 0))) ((attrOf "requestID" kv).getD (.sc (.int 0)), (attrOf "requestID" kt).getD (.sc (.int 0))) ((attrOf "timeInterval" kv).getD (.sc (.int 0)), (attrOf "timeInterval" kt).getD (.sc (.int 0))) ((attrOf "fixedDatumIDs" kv).getD (.sc (.none)), (attrOf "fixedDatumIDs" kt).getD (.sc (.none))) ((attrOf "variableDatumIDs" kv).getD (.sc (.none)), (attrOf "variableDatumIDs" kt).getD (.sc (.none)))) (by
    simp [Ctor.built, Ctor.DataQueryReliablePdu, HeapClass.DataQueryReliablePdu, InPlace.value, InPlace.DataQueryReliablePdu, Codec.DataQueryReliablePdu, DataQueryReliablePdu.init, Param.put, Tree.change, value_asIs, value_orFresh, value_copy, Tree.or_list, DataQueryReliablePdu.members, SimulationManagementWithReliabilityFamilyPdu.members, Pdu.members, PduSuperclass.members, DataQueryDatumSpecification.members, DataQueryDatumSpecification.init, Tree.ints, Tree.objs, Tree.optInt, Tree.optObj, Tree.intOr, Tree.optFloat, Tree.noneOr, IntercomParametersValue.tree])

theorem MinefieldStatePdu.builds (minefieldID minefieldSequence forceID minefieldType minefieldLocation minefieldOrientation appearance protocolMode perimeterPoints mineTypes : Val × Tree) :
    Builds (MinefieldStatePdu.newHeap minefieldID.1 minefieldSequence.1 forceID.1 minefieldType.1 minefieldLocation.1 minefieldOrientation.1 appearance.1 protocolMode.1 perimeterPoints.1 mineTypes.1) [minefieldID, minefieldSequence, forceID, minefieldType, minefieldLocation, minefieldOrientation, appearance, protocolMode, perimeterPoints, mineTypes]
      (.obj (MinefieldFamilyPdu.members { pduType := 37, protocolFamily := 8 } ++ ([("minefieldID", minefieldID.2.or (.obj (MinefieldIdentifier.members MinefieldIdentifier.init))),
      ("minefieldSequence", minefieldSequence.2), ("forceID", forceID.2),
      ("minefieldType", minefieldType.2.or (.obj (EntityType.members EntityType.init))),
      ("minefieldLocation", minefieldLocation.2.or (.obj (WorldCoordinates.members WorldCoordinates.init))),
      ("minefieldOrientation", minefieldOrientation.2.or (.obj (EulerAngles.members EulerAngles.init))),
      ("appearance", appearance.2), ("protocolMode", protocolMode.2),
      ("perimeterPoints", perimeterPoints.2.or (.list [])), ("mineTypes", mineTypes.2.or (.list []))] : List (String × Tree)))) := by
  have a : Fills (fun self => MinefieldStatePdu.initHeap self minefieldID.1 minefieldSequence.1 forceID.1 minefieldType.1 minefieldLocation.1 minefieldOrientation.1 appearance.1 protocolMode.1 perimeterPoints.1 mineTypes.1) [minefieldID, minefieldSequence, forceID, minefieldType, minefieldLocation, minefieldOrientation, appearance, protocolMode, perimeterPoints, mineTypes]
      (([("protocolVersion", .sc .absent), ("exerciseID", .sc .absent), ("pduType", .sc (.int 37)), ("protocolFamily", .sc (.int 8)), ("timestamp", .sc .absent), ("length", .sc .absent)] : List (String × Tree)) ++
      (([("pduStatus", .sc .absent), ("padding", .sc .absent)] : List (String × Tree)) ++
      ([] ++
      (([("minefieldID", .sc .absent), ("minefieldSequence", .sc .absent), ("forceID", .sc .absent), ("minefieldType", .sc .absent), ("minefieldLocation", .sc .absent), ("minefieldOrientation", .sc .absent), ("appearance", .sc .absent), ("protocolMode", .sc .absent), ("perimeterPoints", .sc .absent), ("mineTypes", .sc .absent)] : List (String × Tree)) ++ [])))) []
      (MinefieldFamilyPdu.members { pduType := 37, protocolFamily := 8 } ++ ([("minefieldID", minefieldID.2.or (.obj (MinefieldIdentifier.members MinefieldIdentifier.init))),
      ("minefieldSequence", minefieldSequence.2), ("forceID", forceID.2),
      ("minefieldType", minefieldType.2.or (.obj (EntityType.members EntityType.init))),
      ("minefieldLocation", minefieldLocation.2.or (.obj (WorldCoordinates.members WorldCoordinates.init))),
      ("minefieldOrientation", minefieldOrientation.2.or (.obj (EulerAngles.members EulerAngles.init))),
      ("appearance", appearance.2), ("protocolMode", protocolMode.2),
      ("perimeterPoints", perimeterPoints.2.or (.list [])), ("mineTypes", mineTypes.2.or (.list []))] : List (String × Tree))) := by
    unfold MinefieldStatePdu.initHeap
    refine .bind (.inits (MinefieldFamilyPdu.inits 37 8 _)) ?_
    refine .bind (.or (p := minefieldID) MinefieldIdentifier.makesNew (by simp [attrOf_putAttr_isSome, attrOf, MinefieldStatePdu.members, MinefieldFamilyPdu.members, Pdu.members, PduSuperclass.members])) ?_
    refine .bind (.arg (p := minefieldSequence) (by simp [attrOf_putAttr_isSome, attrOf, MinefieldStatePdu.members, MinefieldFamilyPdu.members, Pdu.members, PduSuperclass.members])) ?_
    refine .bind (.arg (p := forceID) (by simp [attrOf_putAttr_isSome, attrOf, MinefieldStatePdu.members, MinefieldFamilyPdu.members, Pdu.members, PduSuperclass.members])) ?_
    refine .bind (.or (p := minefieldType) EntityType.makesNew (by simp [attrOf_putAttr_isSome, attrOf, MinefieldStatePdu.members, MinefieldFamilyPdu.members, Pdu.members, PduSuperclass.members])) ?_
    refine .bind (.or (p := minefieldLocation) WorldCoordinates.makesNew (by simp [attrOf_putAttr_isSome, attrOf, MinefieldStatePdu.members, MinefieldFamilyPdu.members, Pdu.members, PduSuperclass.members])) ?_
    refine .bind (.or (p := minefieldOrientation) EulerAngles.makesNew (by simp [attrOf_putAttr_isSome, attrOf, MinefieldStatePdu.members, MinefieldFamilyPdu.members, Pdu.members, PduSuperclass.members])) ?_
    refine .bind (.arg (p := appearance) (by simp [attrOf_putAttr_isSome, attrOf, MinefieldStatePdu.members, MinefieldFamilyPdu.members, Pdu.members, PduSuperclass.members])) ?_
    refine .bind (.arg (p := protocolMode) (by simp [attrOf_putAttr_isSome, attrOf, MinefieldStatePdu.members, MinefieldFamilyPdu.members, Pdu.members, PduSuperclass.members])) ?_
    refine .bind (.or (p := perimeterPoints) .empty (by simp [attrOf_putAttr_isSome, attrOf, MinefieldStatePdu.members, MinefieldFamilyPdu.members, Pdu.members, PduSuperclass.members])) ?_
    exact .cast (.or (p := mineTypes) .empty (by simp [attrOf_putAttr_isSome, attrOf, MinefieldStatePdu.members, MinefieldFamilyPdu.members, Pdu.members, PduSuperclass.members]))
      (by simp [putAttr, MinefieldStatePdu.members, MinefieldFamilyPdu.members, Pdu.members, PduSuperclass.members, Tree.ints, Tree.objs, Tree.optInt, Tree.optObj, Tree.intOr, Tree.optFloat, Tree.noneOr, IntercomParametersValue.tree])
  exact .new a

theorem Ctor.MinefieldStatePdu.lawful : Ctor.MinefieldStatePdu.Lawful := by
  intro kv kt e ok
  refine .select [("minefieldID", .none), ("minefieldSequence", .int 0), ("forceID", .int 0), ("minefieldType", .none), ("minefieldLocation", .none), ("minefieldOrientation", .none), ("appearance", .int 0), ("protocolMode", .int 0), ("perimeterPoints", .none), ("mineTypes", .none)] (by simp) e ?_
  exact .cast (MinefieldStatePdu.builds ((attrOf "minefieldID" kv).getD (.sc (.none)), (attrOf "minefieldID" kt).getD (.sc (.none))) ((attrOf "minefieldSequence" kv).getD (.sc (.int 0)), (attrOf "minefieldSequence" kt).getD (.sc (.int 0))) ((attrOf "forceID" kv).getD (.sc (.int 0)), (attrOf "forceID" kt).getD (.sc (.int 0))) ((attrOf "minefieldType" kv).getD (.sc (.none)), (attrOf "minefieldType" kt).getD (.sc (.none))) ((attrOf "minefieldLocation" kv).getD (.sc (.none)), (attrOf "minefieldLocation" kt).getD (.sc (.none))) ((attrOf "minefieldOrientation" kv).getD (.sc (.none)), (attrOf "minefieldOrientation" kt).getD (.sc (.none))) ((attrOf "appearance" kv).getD (.sc (.int 0)), (attrOf "appearance" kt).getD (.sc (.int 0))) ((attrOf "protocolMode" kv).getD (.sc (.int 0)), (attrOf "protocolMode" kt).getD (.sc (.int 0))) ((attrOf "perimeterPoints" kv).getD (.sc (.none)), (attrOf "perimeterPoints" kt).getD (.sc (.none))) ((attrOf "mineTypes" kv).getD (.sc (.none)), (attrOf "mineTypes" kt).getD (.sc (.none)))) (by
    simp [Ctor.built, Ctor.MinefieldStatePdu, HeapClass.MinefieldStatePdu, InPlace.value, InPlace.MinefieldStatePdu, Codec.MinefieldStatePdu, MinefieldStatePdu.init, Param.put, Tree.change, value_asIs, value_orFresh, value_copy, Tree.or_list, MinefieldStatePdu.members, MinefieldFamilyPdu.members, Pdu.members, PduSuperclass.members, Tree.ints, Tree.objs, Tree.optInt, Tree.optObj, Tree.intOr, Tree.optFloat, Tree.noneOr, IntercomParametersValue.tree])

theorem DataReliablePdu.builds (requestID requiredReliabilityService fixedDatumRecords variableDatumRecords : Val × Tree) :
    Builds (DataReliablePdu.newHeap requestID.1 requiredReliabilityService.1 fixedDatumRecords.1 variableDatumRecords.1) [requestID, requiredReliabilityService, fixedDatumRecords, variableDatumRecords]
      (.obj (SimulationManagementWithReliabilityFamilyPdu.members { pduType := 60, protocolFamily := 10 } ++ ([("requestID", requestID.2), ("requiredReliabilityService", requiredReliabilityService.2),
      ("pad1", .sc (.int 0)), ("pad2", .sc (.int 0)),
      ("_datums", .obj [("fixedDatumRecords", (fixedDatumRecords.2.or (.list [])).or (.list [])), ("variableDatumRecords", (variableDatumRecords.2.or (.list [])).or (.list []))])] : List (String × Tree)))) := by
  have a : Fills (fun self => DataReliablePdu.initHeap self requestID.1 requiredReliabilityService.1 fixedDatumRecords.1 variableDatumRecords.1) [requestID, requiredReliabilityService, fixedDatumRecords, variableDatumRecords]
      (([("protocolVersion", .sc .absent), ("exerciseID", .sc .absent), ("pduType", .sc (.int 60)), ("protocolFamily", .sc (.int 10)), ("timestamp", .sc .absent), ("length", .sc .absent)] : List (String × Tree)) ++
      (([("pduStatus", .sc .absent), ("padding", .sc .absent)] : List (String × Tree)) ++
      (([("originatingEntityID", .sc .absent), ("receivingEntityID", .sc .absent)] : List (String × Tree)) ++
      (([("requestID", .sc .absent), ("requiredReliabilityService", .sc .absent), ("pad1", .sc .absent), ("pad2", .sc .absent), ("_datums", .sc .absent)] : List (String × Tree)) ++ [])))) []
      (SimulationManagementWithReliabilityFamilyPdu.members { pduType := 60, protocolFamily := 10 } ++ ([("requestID", requestID.2), ("requiredReliabilityService", requiredReliabilityService.2),
      ("pad1", .sc (.int 0)), ("pad2", .sc (.int 0)),
      ("_datums", .obj [("fixedDatumRecords", (fixedDatumRecords.2.or (.list [])).or (.list [])), ("variableDatumRecords", (variableDatumRecords.2.or (.list [])).or (.list []))])] : List (String × Tree))) := by
    unfold DataReliablePdu.initHeap
    refine .bind (.inits (SimulationManagementWithReliabilityFamilyPdu.inits 60 10 _)) ?_
    refine .bind (.arg (p := requestID) (by simp [attrOf_putAttr_isSome, attrOf, DataReliablePdu.members, SimulationManagementWithReliabilityFamilyPdu.members, Pdu.members, PduSuperclass.members])) ?_
    refine .bind (.arg (p := requiredReliabilityService) (by simp [attrOf_putAttr_isSome, attrOf, DataReliablePdu.members, SimulationManagementWithReliabilityFamilyPdu.members, Pdu.members, PduSuperclass.members])) ?_
    refine .bind (.inits (.set' (by simp [attrOf_putAttr_isSome, attrOf, DataReliablePdu.members, SimulationManagementWithReliabilityFamilyPdu.members, Pdu.members, PduSuperclass.members]))) ?_
    refine .bind (.inits (.set' (by simp [attrOf_putAttr_isSome, attrOf, DataReliablePdu.members, SimulationManagementWithReliabilityFamilyPdu.members, Pdu.members, PduSuperclass.members]))) ?_
    exact .cast (.lists (p := fixedDatumRecords) (q := variableDatumRecords) (k := fun a b => DatumSpecification.newHeap a b)
      (t := fun t u => .obj [("fixedDatumRecords", t.or (.list [])), ("variableDatumRecords", u.or (.list []))]) DatumSpecification.builds (by simp [attrOf_putAttr_isSome, attrOf, DataReliablePdu.members, SimulationManagementWithReliabilityFamilyPdu.members, Pdu.members, PduSuperclass.members]))
      (by simp [putAttr, DataReliablePdu.members, SimulationManagementWithReliabilityFamilyPdu.members, Pdu.members, PduSuperclass.members, Tree.ints, Tree.objs, Tree.optInt, Tree.optObj, Tree.intOr, Tree.optFloat, Tree.noneOr, IntercomParametersValue.tree])
  exact .new a

theorem Ctor.DataReliablePdu.lawful : Ctor.DataReliablePdu.Lawful := by
  intro kv kt e ok
  refine .select [("requestID", .int 0), ("requiredReliabilityService", .int 0), ("fixedDatumRecords", .none), ("variableDatumRecords", .none)] (by simp) e ?_
  exact .cast (DataReliablePdu.builds ((attrOf "requestID" kv).getD (.sc (.int 0)), (attrOf "requestID" kt).getD (.sc (.int 0))) ((attrOf "requiredReliabilityService" kv).getD (.sc (.int 0)), (attrOf "requiredReliabilityService" kt).getD (.sc (.int 0))) ((attrOf "fixedDatumRecords" kv).getD (.sc (.none)), (attrOf "fixedDatumRecords" kt).getD (.sc (.none))) ((attrOf "variableDatumRecords" kv).getD (.sc (.none)), (attrOf "variableDatumRecords" kt).getD (.sc (.none)))) (by
    simp [Ctor.built, Ctor.DataReliablePdu, HeapClass.DataReliablePdu, InPlace.value, InPlace.DataReliablePdu, Codec.DataReliablePdu, DataReliablePdu.init, Param.put, Tree.change, value_asIs, value_orFresh, value_copy, Tree.or_list, DataReliablePdu.members, SimulationManagementWithReliabilityFamilyPdu.members, Pdu.members, PduSuperclass.members, DatumSpecification.members, DatumSpecification.init, Tree.ints, Tree.objs, Tree.optInt, Tree.optObj, Tree.intOr, Tree.optFloat, Tree.noneOr, IntercomParametersValue.tree])

theorem CommentPdu.builds (fixedDatumRecords variableDatumRecords : Val × Tree) :
    Builds (CommentPdu.newHeap fixedDatumRecords.1 variableDatumRecords.1) [fixedDatumRecords, variableDatumRecords]
      (.obj (SimulationManagementFamilyPdu.members { pduType := 22, protocolFamily := 5 } ++ ([("_datums", .obj [("fixedDatumRecords", (fixedDatumRecords.2.or (.list [])).or (.list [])), ("variableDatumRecords", (variableDatumRecords.2.or (.list [])).or (.list []))])] : List (String × Tree)))) := by
  have a : Fills (fun self => CommentPdu.initHeap self fixedDatumRecords.1 variableDatumRecords.1) [fixedDatumRecords, variableDatumRecords]
      (([("protocolVersion", .sc .absent), ("exerciseID", .sc .absent), ("pduType", .sc (.int 22)), ("protocolFamily", .sc (.int 5)), ("timestamp", .sc .absent), ("length", .sc .absent)] : List (String × Tree)) ++
      (([("pduStatus", .sc .absent), ("padding", .sc .absent)] : List (String × Tree)) ++
      (([("originatingEntityID", .sc .absent), ("receivingEntityID", .sc .absent)] : List (String × Tree)) ++
      (([("_datums", .sc .absent)] : List (String × Tree)) ++ [])))) []
      (SimulationManagementFamilyPdu.members { pduType := 22, protocolFamily := 5 } ++ ([("_datums", .obj [("fixedDatumRecords", (fixedDatumRecords.2.or (.list [])).or (.list [])), ("variableDatumRecords", (variableDatumRecords.2.or (.list [])).or (.list []))])] : List (String × Tree))) := by
    unfold CommentPdu.initHeap
    refine .bind (.inits (SimulationManagementFamilyPdu.inits 22 5 _)) ?_
    exact .cast (.lists (p := fixedDatumRecords) (q := variableDatumRecords) (k := fun a b => DatumSpecification.newHeap a b)
      (t := fun t u => .obj [("fixedDatumRecords", t.or (.list [])), ("variableDatumRecords", u.or (.list []))]) DatumSpecification.builds (by simp [attrOf_putAttr_isSome, attrOf, CommentPdu.members, SimulationManagementFamilyPdu.members, Pdu.members, PduSuperclass.members]))
      (by simp [putAttr, CommentPdu.members, SimulationManagementFamilyPdu.members, Pdu.members, PduSuperclass.members, Tree.ints, Tree.objs, Tree.optInt, Tree.optObj, Tree.intOr, Tree.optFloat, Tree.noneOr, IntercomParametersValue.tree])
  exact .new a

theorem Ctor.CommentPdu.lawful : Ctor.CommentPdu.Lawful := by
  intro kv kt e ok
  refine .select [("fixedDatumRecords", .none), ("variableDatumRecords", .none)] (by simp) e ?_
  exact .cast (CommentPdu.builds ((attrOf "fixedDatumRecords" kv).getD (.sc (.none)), (attrOf "fixedDatumRecords" kt).getD (.sc (.none))) ((attrOf "variableDatumRecords" kv).getD (.sc (.none)), (attrOf "variableDatumRecords" kt).getD (.sc (.none)))) (by
    simp [Ctor.built, Ctor.CommentPdu, HeapClass.CommentPdu, InPlace.value, InPlace.CommentPdu, Codec.CommentPdu, CommentPdu.init, Param.put, Tree.change, value_asIs, value_orFresh, value_copy, Tree.or_list, CommentPdu.members, SimulationManagementFamilyPdu.members, Pdu.members, PduSuperclass.members, DatumSpecification.members, DatumSpecification.init, Tree.ints, Tree.objs, Tree.optInt, Tree.optObj, Tree.intOr, Tree.optFloat, Tree.noneOr, IntercomParametersValue.tree])

theorem CommentReliablePdu.builds (fixedDatumRecords variableDatumRecords : Val × Tree) :
    Builds (CommentReliablePdu.newHeap fixedDatumRecords.1 variableDatumRecords.1) [fixedDatumRecords, variableDatumRecords]
      (.obj (SimulationManagementWithReliabilityFamilyPdu.members { pduType := 62, protocolFamily := 10 } ++ ([("_datums", .obj [("fixedDatumRecords", (fixedDatumRecords.2.or (.list [])).or (.list [])), ("variableDatumRecords", (variableDatumRecords.2.or (.list [])).or (.list []))])] : List (String × Tree)))) := by
  have a : Fills (fun self => CommentReliablePdu.initHeap self fixedDatumRecords.1 variableDatumRecords.1) [fixedDatumRecords, variableDatumRecords]
      (([("protocolVersion", .sc .absent), ("exerciseID", .sc .absent), ("pduType", .sc (.int 62)), ("protocolFamily", .sc (.int 10)), ("timestamp", .sc .absent), ("length", .sc .absent)] : List (String × Tree)) ++
      (([("pduStatus", .sc .absent), ("padding", .sc .absent)] : List (String × Tree)) ++
      (([("originatingEntityID", .sc .absent), ("receivingEntityID", .sc .absent)] : List (String × Tree)) ++
      (([("_datums", .sc .absent)] : List (String × Tree)) ++ [])))) []
      (SimulationManagementWithReliabilityFamilyPdu.members { pduType := 62, protocolFamily := 10 } ++ ([("_datums", .obj [("fixedDatumRecords", (fixedDatumRecords.2.or (.list [])).or (.list [])), ("variableDatumRecords", (variableDatumRecords.2.or (.list [])).or (.list []))])] : List (String × Tree))) := by
    unfold CommentReliablePdu.initHeap
    refine .bind (.inits (SimulationManagementWithReliabilityFamilyPdu.inits 62 10 _)) ?_
    exact .cast (.lists (p := fixedDatumRecords) (q := variableDatumRecords) (k := fun a b => DatumSpecification.newHeap a b)
      (t := fun t u => .obj [("fixedDatumRecords", t.or (.list [])), ("variableDatumRecords", u.or (.list []))]) DatumSpecification.builds (by simp [attrOf_putAttr_isSome, attrOf, CommentReliablePdu.members, SimulationManagementWithReliabilityFamilyPdu.members, Pdu.members, PduSuperclass.members]))
      (by simp [putAttr, CommentReliablePdu.members, SimulationManagementWithReliabilityFamilyPdu.members, Pdu.members, PduSuperclass.members, Tree.ints, Tree.objs, Tree.optInt, Tree.optObj, Tree.intOr, Tree.optFloat, Tree.noneOr, IntercomParametersValue.tree])
  exact .new a

theorem Ctor.CommentReliablePdu.lawful : Ctor.CommentReliablePdu.Lawful := by
  intro kv kt e ok
  refine .select [("fixedDatumRecords", .none), ("variableDatumRecords", .none)] (by simp) e ?_
  exact .cast (CommentReliablePdu.builds ((attrOf "fixedDatumRecords" kv).getD (.sc (.none)), (attrOf "fixedDatumRecords" kt).getD (.sc (.none))) ((attrOf "variableDatumRecords" kv).getD (.sc (.none)), (attrOf "variableDatumRecords" kt).getD (.sc (.none)))) (by
    simp [Ctor.built, Ctor.CommentReliablePdu, HeapClass.CommentReliablePdu, InPlace.value, InPlace.CommentReliablePdu, Codec.CommentReliablePdu, CommentReliablePdu.init, Param.put, Tree.change, value_asIs, value_orFresh, value_copy, Tree.or_list, CommentReliablePdu.members, SimulationManagementWithReliabilityFamilyPdu.members, Pdu.members, PduSuperclass.members, DatumSpecification.members, DatumSpecification.init, Tree.ints, Tree.objs, Tree.optInt, Tree.optObj, Tree.intOr, Tree.optFloat, Tree.noneOr, IntercomParametersValue.tree])

theorem DetonationPdu.builds (explodingEntityID eventID velocity location descriptor locationInEntityCoordinates detonationResult variableParameters : Val × Tree) :
    Builds (DetonationPdu.newHeap explodingEntityID.1 eventID.1 velocity.1 location.1 descriptor.1 locationInEntityCoordinates.1 detonationResult.1 variableParameters.1) [explodingEntityID, eventID, velocity, location, descriptor, locationInEntityCoordinates, detonationResult, variableParameters]
      (.obj (WarfareFamilyPdu.members { pduType := 3, protocolFamily := 2 } ++ ([("explodingEntityID", explodingEntityID.2.or (.obj (EntityIdentifier.members EntityIdentifier.init))),
      ("eventID", eventID.2.or (.obj (EventIdentifier.members EventIdentifier.init))),
      ("velocity", velocity.2.or (.obj (Vector3Float.members Vector3Float.init))),
      ("location", location.2.or (.obj (WorldCoordinates.members WorldCoordinates.init))),
      ("descriptor", descriptor.2.or (.obj (MunitionDescriptor.members MunitionDescriptor.init))),
      ("locationInEntityCoordinates", locationInEntityCoordinates.2.or (.obj (Vector3Float.members Vector3Float.init))),
      ("detonationResult", detonationResult.2), ("pad", .sc (.int 0)),
      ("variableParameters", variableParameters.2.or (.list []))] : List (String × Tree)))) := by
  have a : Fills (fun self => DetonationPdu.initHeap self explodingEntityID.1 eventID.1 velocity.1 location.1 descriptor.1 locationInEntityCoordinates.1 detonationResult.1 variableParameters.1) [explodingEntityID, eventID, velocity, location, descriptor, locationInEntityCoordinates, detonationResult, variableParameters]
      (([("protocolVersion", .sc .absent), ("exerciseID", .sc .absent), ("pduType", .sc (.int 3)), ("protocolFamily", .sc (.int 2)), ("timestamp", .sc .absent), ("length", .sc .absent)] : List (String × Tree)) ++
      (([("pduStatus", .sc .absent), ("padding", .sc .absent)] : List (String × Tree)) ++
      (([("firingEntityID", .sc .absent), ("targetEntityID", .sc .absent)] : List (String × Tree)) ++
      (([("explodingEntityID", .sc .absent), ("eventID", .sc .absent), ("velocity", .sc .absent), ("location", .sc .absent), ("descriptor", .sc .absent), ("locationInEntityCoordinates", .sc .absent), ("detonationResult", .sc .absent), ("pad", .sc .absent), ("variableParameters", .sc .absent)] : List (String × Tree)) ++ [])))) []
      (WarfareFamilyPdu.members { pduType := 3, protocolFamily := 2 } ++ ([("explodingEntityID", explodingEntityID.2.or (.obj (EntityIdentifier.members EntityIdentifier.init))),
      ("eventID", eventID.2.or (.obj (EventIdentifier.members EventIdentifier.init))),
      ("velocity", velocity.2.or (.obj (Vector3Float.members Vector3Float.init))),
      ("location", location.2.or (.obj (WorldCoordinates.members WorldCoordinates.init))),
      ("descriptor", descriptor.2.or (.obj (MunitionDescriptor.members MunitionDescriptor.init))),
      ("locationInEntityCoordinates", locationInEntityCoordinates.2.or (.obj (Vector3Float.members Vector3Float.init))),
      ("detonationResult", detonationResult.2), ("pad", .sc (.int 0)),
      ("variableParameters", variableParameters.2.or (.list []))] : List (String × Tree))) := by
    unfold DetonationPdu.initHeap
    refine .bind (.inits (WarfareFamilyPdu.inits 3 2 _)) ?_
    refine .bind (.or (p := explodingEntityID) EntityIdentifier.makesNew (by simp [attrOf_putAttr_isSome, attrOf, DetonationPdu.members, WarfareFamilyPdu.members, Pdu.members, PduSuperclass.members])) ?_
    refine .bind (.or (p := eventID) EventIdentifier.makesNew (by simp [attrOf_putAttr_isSome, attrOf, DetonationPdu.members, WarfareFamilyPdu.members, Pdu.members, PduSuperclass.members])) ?_
    refine .bind (.or (p := velocity) Vector3Float.makesNew (by simp [attrOf_putAttr_isSome, attrOf, DetonationPdu.members, WarfareFamilyPdu.members, Pdu.members, PduSuperclass.members])) ?_
    refine .bind (.or (p := location) WorldCoordinates.makesNew (by simp [attrOf_putAttr_isSome, attrOf, DetonationPdu.members, WarfareFamilyPdu.members, Pdu.members, PduSuperclass.members])) ?_
    refine .bind (.or (p := descriptor) MunitionDescriptor.makesNew (by simp [attrOf_putAttr_isSome, attrOf, DetonationPdu.members, WarfareFamilyPdu.members, Pdu.members, PduSuperclass.members])) ?_
    refine .bind (.or (p := locationInEntityCoordinates) Vector3Float.makesNew (by simp [attrOf_putAttr_isSome, attrOf, DetonationPdu.members, WarfareFamilyPdu.members, Pdu.members, PduSuperclass.members])) ?_
    refine .bind (.arg (p := detonationResult) (by simp [attrOf_putAttr_isSome, attrOf, DetonationPdu.members, WarfareFamilyPdu.members, Pdu.members, PduSuperclass.members])) ?_
    refine .bind (.inits (.set' (by simp [attrOf_putAttr_isSome, attrOf, DetonationPdu.members, WarfareFamilyPdu.members, Pdu.members, PduSuperclass.members]))) ?_
    exact .cast (.or (p := variableParameters) .empty (by simp [attrOf_putAttr_isSome, attrOf, DetonationPdu.members, WarfareFamilyPdu.members, Pdu.members, PduSuperclass.members]))
      (by simp [putAttr, DetonationPdu.members, WarfareFamilyPdu.members, Pdu.members, PduSuperclass.members, Tree.ints, Tree.objs, Tree.optInt, Tree.optObj, Tree.intOr, Tree.optFloat, Tree.noneOr, IntercomParametersValue.tree])
  exact .new a

theorem Ctor.DetonationPdu.lawful : Ctor.DetonationPdu.Lawful := by
  intro kv kt e ok
  refine .select [("explodingEntityID", .none), ("eventID", .none), ("velocity", .none), ("location", .none), ("descriptor", .none), ("locationInEntityCoordinates", .none), ("detonationResult", .int 0), ("variableParameters", .none)] (by simp) e ?_
  exact .cast (DetonationPdu.builds ((attrOf "explodingEntityID" kv).getD (.sc (.none)), (attrOf "explodingEntityID" kt).getD (.sc (.none))) ((attrOf "eventID" kv).getD (.sc (.none)), (attrOf "eventID" kt).getD (.sc (.none))) ((attrOf "velocity" kv).getD (.sc (.none)), (attrOf "velocity" kt).getD (.sc (.none))) ((attrOf "location" kv).getD (.sc (.none)), (attrOf "location" kt).getD (.sc (.none))) ((attrOf "descriptor" kv).getD (.sc (.none)), (attrOf "descriptor" kt).getD (.sc (.none))) ((attrOf "locationInEntityCoordinates" kv).getD (.sc (.none)), (attrOf "locationInEntityCoordinates" kt).getD (.sc (.none))) ((attrOf "detonationResult" kv).getD (.sc (.int 0)), (attrOf "detonationResult" kt).getD (.sc (.int 0))) ((attrOf "variableParameters" kv).getD (.sc (.none)), (attrOf "variableParameters" kt).getD (.sc (.none)))) (by
    simp [Ctor.built, Ctor.DetonationPdu, HeapClass.DetonationPdu, InPlace.value, InPlace.DetonationPdu, Codec.DetonationPdu, DetonationPdu.init, Param.put, Tree.change, value_asIs, value_orFresh, value_copy, Tree.or_list, DetonationPdu.members, WarfareFamilyPdu.members, Pdu.members, PduSuperclass.members, Tree.ints, Tree.objs, Tree.optInt, Tree.optObj, Tree.intOr, Tree.optFloat, Tree.noneOr, IntercomParametersValue.tree])

theorem SetDataPdu.builds (requestID fixedDatumRecords variableDatumRecords : Val × Tree) :
    Builds (SetDataPdu.newHeap requestID.1 fixedDatumRecords.1 variableDatumRecords.1) [requestID, fixedDatumRecords, variableDatumRecords]
      (.obj (SimulationManagementFamilyPdu.members { pduType := 19, protocolFamily := 5 } ++ ([("requestID", requestID.2), ("padding1", .sc (.int 0)),
      ("_datums", .obj [("fixedDatumRecords", (fixedDatumRecords.2.or (.list [])).or (.list [])), ("variableDatumRecords", (variableDatumRecords.2.or (.list [])).or (.list []))])] : List (String × Tree)))) := by
  have a : Fills (fun self => SetDataPdu.initHeap self requestID.1 fixedDatumRecords.1 variableDatumRecords.1) [requestID, fixedDatumRecords, variableDatumRecords]
      (([("protocolVersion", .sc .absent), ("exerciseID", .sc .absent), ("pduType", .sc (.int 19)), ("protocolFamily", .sc (.int 5)), ("timestamp", .sc .absent), ("length", .sc .absent)] : List (String × Tree)) ++
      (([("pduStatus", .sc .absent), ("padding", .sc .absent)] : List (String × Tree)) ++
      (([("originatingEntityID", .sc .absent), ("receivingEntityID", .sc .absent)] : List (String × Tree)) ++
      (([("requestID", .sc .absent), ("padding1", .sc .absent), ("_datums", .sc .absent)] : List (String × Tree)) ++ [])))) []
      (SimulationManagementFamilyPdu.members { pduType := 19, protocolFamily := 5 } ++ ([("requestID", requestID.2), ("padding1", .sc (.int 0)),
      ("_datums", .obj [("fixedDatumRecords", (fixedDatumRecords.2.or (.list [])).or (.list [])), ("variableDatumRecords", (variableDatumRecords.2.or (.list [])).or (.list []))])] : List (String × Tree))) := by
    unfold SetDataPdu.initHeap
    refine .bind (.inits (SimulationManagementFamilyPdu.inits 19 5 _)) ?_
    refine .bind (.arg (p := requestID) (by simp [attrOf_putAttr_isSome, attrOf, SetDataPdu.members, SimulationManagementFamilyPdu.members, Pdu.members, PduSuperclass.members])) ?_
    refine .bind (.inits (.set' (by simp [attrOf_putAttr_isSome, attrOf, SetDataPdu.members, SimulationManagementFamilyPdu.members, Pdu.members, PduSuperclass.members]))) ?_
    exact .cast (.lists (p := fixedDatumRecords) (q := variableDatumRecords) (k := fun a b => DatumSpecification.newHeap a b)
      (t := fun t u => .obj [("fixedDatumRecords", t.or (.list [])), ("variableDatumRecords", u.or (.list []))]) DatumSpecification.builds (by simp [attrOf_putAttr_isSome, attrOf, SetDataPdu.members, SimulationManagementFamilyPdu.members, Pdu.members, PduSuperclass.members]))
      (by simp [putAttr, SetDataPdu.members, SimulationManagementFamilyPdu.members, Pdu.members, PduSuperclass.members, Tree.ints, Tree.objs, Tree.optInt, Tree.optObj, Tree.intOr, Tree.optFloat, Tree.noneOr, IntercomParametersValue.tree])
  exact .new a

theorem Ctor.SetDataPdu.lawful : Ctor.SetDataPdu.Lawful := by
  intro kv kt e ok
  refine .select [("requestID", .int 0), ("fixedDatumRecords", .none), ("variableDatumRecords", .none)] (by simp) e ?_
  exact .cast (SetDataPdu.builds ((attrOf "requestID" kv).getD (.sc (.int 0)), (attrOf "requestID" kt).getD (.sc (.int 0))) ((attrOf "fixedDatumRecords" kv).getD (.sc (.none)), (attrOf "fixedDatumRecords" kt).getD (.sc (.none))) ((attrOf "variableDatumRecords" kv).getD (.sc (.none)), (attrOf "variableDatumRecords" kt).getD (.sc (.none)))) (by
    simp [Ctor.built, Ctor.SetDataPdu, HeapClass.SetDataPdu, InPlace.value, InPlace.SetDataPdu, Codec.SetDataPdu, SetDataPdu.init, Param.put, Tree.change, value_asIs, value_orFresh, value_copy, Tree.or_list, SetDataPdu.members, SimulationManagementFamilyPdu.members, Pdu.members, PduSuperclass.members, DatumSpecification.members, DatumSpecification.init, Tree.ints, Tree.objs, Tree.optInt, Tree.optObj, Tree.intOr, Tree.optFloat, Tree.noneOr, IntercomParametersValue.tree])

theorem RecordQueryReliablePdu.builds (requestID requiredReliabilityService eventType time recordIDs : Val × Tree) :
    Builds (RecordQueryReliablePdu.newHeap requestID.1 requiredReliabilityService.1 eventType.1 time.1 recordIDs.1) [requestID, requiredReliabilityService, eventType, time, recordIDs]
      (.obj (SimulationManagementWithReliabilityFamilyPdu.members { pduType := 63, protocolFamily := 10 } ++ ([("requestID", requestID.2), ("requiredReliabilityService", requiredReliabilityService.2),
      ("pad1", .sc (.int 0)), ("pad2", .sc (.int 0)), ("eventType", eventType.2), ("time", time.2),
      ("recordIDs", recordIDs.2.or (.list []))] : List (String × Tree)))) := by
  have a : Fills (fun self => RecordQueryReliablePdu.initHeap self requestID.1 requiredReliabilityService.1 eventType.1 time.1 recordIDs.1) [requestID, requiredReliabilityService, eventType, time, recordIDs]
      (([("protocolVersion", .sc .absent), ("exerciseID", .sc .absent), ("pduType", .sc (.int 63)), ("protocolFamily", .sc (.int 10)), ("timestamp", .sc .absent), ("length", .sc .absent)] : List (String × Tree)) ++
      (([("pduStatus", .sc .absent), ("padding", .sc .absent)] : List (String × Tree)) ++
      (([("originatingEntityID", .sc .absent), ("receivingEntityID", .sc .absent)] : List (String × Tree)) ++
      (([("requestID", .sc .absent), ("requiredReliabilityService", .sc .absent), ("pad1", .sc .absent), ("pad2", .sc .absent), ("eventType", .sc .absent), ("time", .sc .absent), ("recordIDs", .sc .absent)] : List (String × Tree)) ++ [])))) []
      (SimulationManagementWithReliabilityFamilyPdu.members { pduType := 63, protocolFamily := 10 } ++ ([("requestID", requestID.2), ("requiredReliabilityService", requiredReliabilityService.2),
      ("pad1", .sc (.int 0)), ("pad2", .sc (.int 0)), ("eventType", eventType.2), ("time", time.2),
      ("recordIDs", recordIDs.2.or (.list []))] : List (String × Tree))) := by
    unfold RecordQueryReliablePdu.initHeap
    refine .bind (.inits (SimulationManagementWithReliabilityFamilyPdu.inits 63 10 _)) ?_
    refine .bind (.arg (p := requestID) (by simp [attrOf_putAttr_isSome, attrOf, RecordQueryReliablePdu.members, SimulationManagementWithReliabilityFamilyPdu.members, Pdu.members, PduSuperclass.members])) ?_
    refine .bind (.arg (p := requiredReliabilityService) (by simp [attrOf_putAttr_isSome, attrOf, RecordQueryReliablePdu.members, SimulationManagementWithReliabilityFamilyPdu.members, Pdu.members, PduSuperclass.members])) ?_
    refine .bind (.inits (.set' (by simp [attrOf_putAttr_isSome, attrOf, RecordQueryReliablePdu.members, SimulationManagementWithReliabilityFamilyPdu.members, Pdu.members, PduSuperclass.members]))) ?_
    refine .bind (.inits (.set' (by simp [attrOf_putAttr_isSome, attrOf, RecordQueryReliablePdu.members, SimulationManagementWithReliabilityFamilyPdu.members, Pdu.members, PduSuperclass.members]))) ?_
    refine .bind (.arg (p := eventType) (by simp [attrOf_putAttr_isSome, attrOf, RecordQueryReliablePdu.members, SimulationManagementWithReliabilityFamilyPdu.members, Pdu.members, PduSuperclass.members])) ?_
    refine .bind (.arg (p := time) (by simp [attrOf_putAttr_isSome, attrOf, RecordQueryReliablePdu.members, SimulationManagementWithReliabilityFamilyPdu.members, Pdu.members, PduSuperclass.members])) ?_
    exact .cast (.or (p := recordIDs) .empty (by simp [attrOf_putAttr_isSome, attrOf, RecordQueryReliablePdu.members, SimulationManagementWithReliabilityFamilyPdu.members, Pdu.members, PduSuperclass.members]))
      (by simp [putAttr, RecordQueryReliablePdu.members, SimulationManagementWithReliabilityFamilyPdu.members, Pdu.members, PduSuperclass.members, Tree.ints, Tree.objs, Tree.optInt, Tree.optObj, Tree.intOr, Tree.optFloat, Tree.noneOr, IntercomParametersValue.tree])
  exact .new a

theorem Ctor.RecordQueryReliablePdu.lawful : Ctor.RecordQueryReliablePdu.Lawful := by
  intro kv kt e ok
  refine .select [("requestID", .int 0), ("requiredReliabilityService", .int 0), ("eventType", .int 0), ("time", .int 0), ("recordIDs", .none)] (by simp) e ?_
  exact .cast (RecordQueryReliablePdu.builds ((attrOf "requestID" kv).getD (.sc (.int 0)), (attrOf "requestID" kt).getD (.sc (.int 0))) ((attrOf "requiredReliabilityService" kv).getD (.sc (.int 0)), (attrOf "requiredReliabilityService" kt).getD (.sc (.int 0))) ((attrOf "eventType" kv).getD (.sc (.int 0)), (attrOf "eventType" kt).getD (.sc (.int 0))) ((attrOf "time" kv).getD (.sc (.int 0)), (attrOf "time" kt).getD (.sc (.int 0))) ((attrOf "recordIDs" kv).getD (.sc (.none)), (attrOf "recordIDs" kt).getD (.sc (.none)))) (by
    simp [Ctor.built, Ctor.RecordQueryReliablePdu, HeapClass.RecordQueryReliablePdu, InPlace.value, InPlace.RecordQueryReliablePdu, Codec.RecordQueryReliablePdu, RecordQueryReliablePdu.init, Param.put, Tree.change, value_asIs, value_orFresh, value_copy, Tree.or_list, RecordQueryReliablePdu.members, SimulationManagementWithReliabilityFamilyPdu.members, Pdu.members, PduSuperclass.members, Tree.ints, Tree.objs, Tree.optInt, Tree.optObj, Tree.intOr, Tree.optFloat, Tree.noneOr, IntercomParametersValue.tree])

theorem ActionResponsePdu.builds (requestID requestStatus fixedDatumRecords variableDatumRecords : Val × Tree) :
    Builds (ActionResponsePdu.newHeap requestID.1 requestStatus.1 fixedDatumRecords.1 variableDatumRecords.1) [requestID, requestStatus, fixedDatumRecords, variableDatumRecords]
      (.obj (SimulationManagementFamilyPdu.members { pduType := 17, protocolFamily := 5 } ++ ([("requestID", requestID.2), ("requestStatus", requestStatus.2),
      ("_datums", .obj [("fixedDatumRecords", (fixedDatumRecords.2.or (.list [])).or (.list [])), ("variableDatumRecords", (variableDatumRecords.2.or (.list [])).or (.list []))])] : List (String × Tree)))) := by
  have a : Fills (fun self => ActionResponsePdu.initHeap self requestID.1 requestStatus.1 fixedDatumRecords.1 variableDatumRecords.1) [requestID, requestStatus, fixedDatumRecords, variableDatumRecords]
      (([("protocolVersion", .sc .absent), ("exerciseID", .sc .absent), ("pduType", .sc (.int 17)), ("protocolFamily", .sc (.int 5)), ("timestamp", .sc .absent), ("length", .sc .absent)] : List (String × Tree)) ++
      (([("pduStatus", .sc .absent), ("padding", .sc .absent)] : List (String × Tree)) ++
      (([("originatingEntityID", .sc .absent), ("receivingEntityID", .sc .absent)] : List (String × Tree)) ++
      (([("requestID", .sc .absent), ("requestStatus", .sc .absent), ("_datums", .sc .absent)] : List (String × Tree)) ++ [])))) []
      (SimulationManagementFamilyPdu.members { pduType := 17, protocolFamily := 5 } ++ ([("requestID", requestID.2), ("requestStatus", requestStatus.2),
      ("_datums", .obj [("fixedDatumRecords", (fixedDatumRecords.2.or (.list [])).or (.list [])), ("variableDatumRecords", (variableDatumRecords.2.or (.list [])).or (.list []))])] : List (String × Tree))) := by
    unfold ActionResponsePdu.initHeap
    refine .bind (.inits (SimulationManagementFamilyPdu.inits 17 5 _)) ?_
    refine .bind (.arg (p := requestID) (by simp [attrOf_putAttr_isSome, attrOf, ActionResponsePdu.members, SimulationManagementFamilyPdu.members, Pdu.members, PduSuperclass.members])) ?_
    refine .bind (.arg (p := requestStatus) (by simp [attrOf_putAttr_isSome, attrOf, ActionResponsePdu.members, SimulationManagementFamilyPdu.members, Pdu.members, PduSuperclass.members])) ?_
    exact .cast (.lists (p := fixedDatumRecords) (q := variableDatumRecords) (k := fun a b => DatumSpecification.newHeap a b)
      (t := fun t u => .obj [("fixedDatumRecords", t.or (.list [])), ("variableDatumRecords", u.or (.list []))]) DatumSpecification.builds (by simp [attrOf_putAttr_isSome, attrOf, ActionResponsePdu.members, SimulationManagementFamilyPdu.members, Pdu.members, PduSuperclass.members]))
      (by simp [putAttr, ActionResponsePdu.members, SimulationManagementFamilyPdu.members, Pdu.members, PduSuperclass.members, Tree.ints, Tree.objs, Tree.optInt, Tree.optObj, Tree.intOr, Tree.optFloat, Tree.noneOr, IntercomParametersValue.tree])
  exact .new a

theorem Ctor.ActionResponsePdu.lawful : Ctor.ActionResponsePdu.Lawful := by
  intro kv kt e ok
  refine .select [("requestID", .int 0), ("requestStatus", .int 0), ("fixedDatumRecords", .none), ("variableDatumRecords", .none)] (by simp) e ?_
  exact .cast (ActionResponsePdu.builds ((attrOf "requestID" kv).getD (.sc (.int 0)), (attrOf "requestID" kt).getD (.sc (.int 0))) ((attrOf "requestStatus" kv).getD (.sc (.int 0)), (attrOf "requestStatus" kt).getD (.sc (.int 0))) ((attrOf "fixedDatumRecords" kv).getD (.sc (.none)), (attrOf "fixedDatumRecords" kt).getD (.sc (.none))) ((attrOf "variableDatumRecords" kv).getD (.sc (.none)), (attrOf "variableDatumRecords" kt).getD (.sc (.none)))) (by
    simp [Ctor.built, Ctor.ActionResponsePdu, HeapClass.ActionResponsePdu, InPlace.value, InPlace.ActionResponsePdu, Codec.ActionResponsePdu, ActionResponsePdu.init, Param.put, Tree.change, value_asIs, value_orFresh, value_copy, Tree.or_list, ActionResponsePdu.members, SimulationManagementFamilyPdu.members, Pdu.members, PduSuperclass.members, DatumSpecification.members, DatumSpecification.init, Tree.ints, Tree.objs, Tree.optInt, Tree.optObj, Tree.intOr, Tree.optFloat, Tree.noneOr, IntercomParametersValue.tree])

theorem FirePdu.builds (munitionExpendableID eventID fireMissionIndex location descriptor velocity range_ : Val × Tree) :
    Builds (FirePdu.newHeap munitionExpendableID.1 eventID.1 fireMissionIndex.1 location.1 descriptor.1 velocity.1 range_.1) [munitionExpendableID, eventID, fireMissionIndex, location, descriptor, velocity, range_]
      (.obj (WarfareFamilyPdu.members { pduType := 2, protocolFamily := 2 } ++ ([("munitionExpendableID", munitionExpendableID.2.or (.obj (EntityIdentifier.members EntityIdentifier.init))),
      ("eventID", eventID.2.or (.obj (EventIdentifier.members EventIdentifier.init))),
      ("fireMissionIndex", fireMissionIndex.2),
      ("location", location.2.or (.obj (WorldCoordinates.members WorldCoordinates.init))),
      ("descriptor", descriptor.2.or (.obj (MunitionDescriptor.members MunitionDescriptor.init))),
      ("velocity", velocity.2.or (.obj (Vector3Float.members Vector3Float.init))), ("range", range_.2)] : List (String × Tree)))) := by
  have a : Fills (fun self => FirePdu.initHeap self munitionExpendableID.1 eventID.1 fireMissionIndex.1 location.1 descriptor.1 velocity.1 range_.1) [munitionExpendableID, eventID, fireMissionIndex, location, descriptor, velocity, range_]
      (([("protocolVersion", .sc .absent), ("exerciseID", .sc .absent), ("pduType", .sc (.int 2)), ("protocolFamily", .sc (.int 2)), ("timestamp", .sc .absent), ("length", .sc .absent)] : List (String × Tree)) ++
      (([("pduStatus", .sc .absent), ("padding", .sc .absent)] : List (String × Tree)) ++
      (([("firingEntityID", .sc .absent), ("targetEntityID", .sc .absent)] : List (String × Tree)) ++
      (([("munitionExpendableID", .sc .absent), ("eventID", .sc .absent), ("fireMissionIndex", .sc .absent), ("location", .sc .absent), ("descriptor", .sc .absent), ("velocity", .sc .absent), ("range", .sc .absent)] : List (String × Tree)) ++ [])))) []
      (WarfareFamilyPdu.members { pduType := 2, protocolFamily := 2 } ++ ([("munitionExpendableID", munitionExpendableID.2.or (.obj (EntityIdentifier.members EntityIdentifier.init))),
      ("eventID", eventID.2.or (.obj (EventIdentifier.members EventIdentifier.init))),
      ("fireMissionIndex", fireMissionIndex.2),
      ("location", location.2.or (.obj (WorldCoordinates.members WorldCoordinates.init))),
      ("descriptor", descriptor.2.or (.obj (MunitionDescriptor.members MunitionDescriptor.init))),
      ("velocity", velocity.2.or (.obj (Vector3Float.members Vector3Float.init))), ("range", range_.2)] : List (String × Tree))) := by
    unfold FirePdu.initHeap
    refine .bind (.inits (WarfareFamilyPdu.inits 2 2 _)) ?_
    refine .bind (.or (p := munitionExpendableID) EntityIdentifier.makesNew (by simp [attrOf_putAttr_isSome, attrOf, FirePdu.members, WarfareFamilyPdu.members, Pdu.members, PduSuperclass.members])) ?_
    refine .bind (.or (p := eventID) EventIdentifier.makesNew (by simp [attrOf_putAttr_isSome, attrOf, FirePdu.members, WarfareFamilyPdu.members, Pdu.members, PduSuperclass.members])) ?_
    refine .bind (.arg (p := fireMissionIndex) (by simp [attrOf_putAttr_isSome, attrOf, FirePdu.members, WarfareFamilyPdu.members, Pdu.members, PduSuperclass.members])) ?_
    refine .bind (.or (p := location) WorldCoordinates.makesNew (by simp [attrOf_putAttr_isSome, attrOf, FirePdu.members, WarfareFamilyPdu.members, Pdu.members, PduSuperclass.members])) ?_
    refine .bind (.or (p := descriptor) MunitionDescriptor.makesNew (by simp [attrOf_putAttr_isSome, attrOf, FirePdu.members, WarfareFamilyPdu.members, Pdu.members, PduSuperclass.members])) ?_
    refine .bind (.or (p := velocity) Vector3Float.makesNew (by simp [attrOf_putAttr_isSome, attrOf, FirePdu.members, WarfareFamilyPdu.members, Pdu.members, PduSuperclass.members])) ?_
    exact .cast (.arg (p := range_) (by simp [attrOf_putAttr_isSome, attrOf, FirePdu.members, WarfareFamilyPdu.members, Pdu.members, PduSuperclass.members]))
      (by simp [putAttr, FirePdu.members, WarfareFamilyPdu.members, Pdu.members, PduSuperclass.members, Tree.ints, Tree.objs, Tree.optInt, Tree.optObj, Tree.intOr, Tree.optFloat, Tree.noneOr, IntercomParametersValue.tree])
  exact .new a

theorem Ctor.FirePdu.lawful : Ctor.FirePdu.Lawful := by
  intro kv kt e ok
  refine .select [("munitionExpendableID", .none), ("eventID", .none), ("fireMissionIndex", .int 0), ("location", .none), ("descriptor", .none), ("velocity", .none), ("range_", .float 0x0000000000000000)] (by simp) e ?_
  exact .cast (FirePdu.builds ((attrOf "munitionExpendableID" kv).getD (.sc (.none)), (attrOf "munitionExpendableID" kt).getD (.sc (.none))) ((attrOf "eventID" kv).getD (.sc (.none)), (attrOf "eventID" kt).getD (.sc (.none))) ((attrOf "fireMissionIndex" kv).getD (.sc (.int 0)), (attrOf "fireMissionIndex" kt).getD (.sc (.int 0))) ((attrOf "location" kv).getD (.sc (.none)), (attrOf "location" kt).getD (.sc (.none))) ((attrOf "descriptor" kv).getD (.sc (.none)), (attrOf "descriptor" kt).getD (.sc (.none))) ((attrOf "velocity" kv).getD (.sc (.none)), (attrOf "velocity" kt).getD (.sc (.none))) ((attrOf "range_" kv).getD (.sc (.float 0x0000000000000000)), (attrOf "range_" kt).getD (.sc (.float 0x0000000000000000)))) (by
    simp [Ctor.built, Ctor.FirePdu, HeapClass.FirePdu, InPlace.value, InPlace.FirePdu, Codec.FirePdu, FirePdu.init, Param.put, Tree.change, value_asIs, value_orFresh, value_copy, Tree.or_list, FirePdu.members, WarfareFamilyPdu.members, Pdu.members, PduSuperclass.members, Tree.ints, Tree.objs, Tree.optInt, Tree.optObj, Tree.intOr, Tree.optFloat, Tree.noneOr, IntercomParametersValue.tree])

theorem ReceiverPdu.builds (receiverState receivedPower transmitterEntityID transmitterRadioId : Val × Tree) :
    Builds (ReceiverPdu.newHeap receiverState.1 receivedPower.1 transmitterEntityID.1 transmitterRadioId.1) [receiverState, receivedPower, transmitterEntityID, transmitterRadioId]
      (.obj (RadioCommunicationsFamilyPdu.members { pduType := 27, protocolFamily := 4 } ++ ([("receiverState", receiverState.2), ("padding1", .sc (.int 0)), ("receivedPower", receivedPower.2),
      ("transmitterEntityID", transmitterEntityID.2.or (.obj (EntityIdentifier.members EntityIdentifier.init))),
      ("transmitterRadioId", transmitterRadioId.2)] : List (String × Tree)))) := by
  have a : Fills (fun self => ReceiverPdu.initHeap self receiverState.1 receivedPower.1 transmitterEntityID.1 transmitterRadioId.1) [receiverState, receivedPower, transmitterEntityID, transmitterRadioId]
      (([("protocolVersion", .sc .absent), ("exerciseID", .sc .absent), ("pduType", .sc (.int 27)), ("protocolFamily", .sc (.int 4)), ("timestamp", .sc .absent), ("length", .sc .absent)] : List (String × Tree)) ++
      (([("pduStatus", .sc .absent), ("padding", .sc .absent)] : List (String × Tree)) ++
      ([] ++
      (([("receiverState", .sc .absent), ("padding1", .sc .absent), ("receivedPower", .sc .absent), ("transmitterEntityID", .sc .absent), ("transmitterRadioId", .sc .absent)] : List (String × Tree)) ++ [])))) []
      (RadioCommunicationsFamilyPdu.members { pduType := 27, protocolFamily := 4 } ++ ([("receiverState", receiverState.2), ("padding1", .sc (.int 0)), ("receivedPower", receivedPower.2),
      ("transmitterEntityID", transmitterEntityID.2.or (.obj (EntityIdentifier.members EntityIdentifier.init))),
      ("transmitterRadioId", transmitterRadioId.2)] : List (String × Tree))) := by
    unfold ReceiverPdu.initHeap
    refine .bind (.inits (RadioCommunicationsFamilyPdu.inits 27 4 _)) ?_
    refine .bind (.arg (p := receiverState) (by simp [attrOf_putAttr_isSome, attrOf, ReceiverPdu.members, RadioCommunicationsFamilyPdu.members, Pdu.members, PduSuperclass.members])) ?_
    refine .bind (.inits (.set' (by simp [attrOf_putAttr_isSome, attrOf, ReceiverPdu.members, RadioCommunicationsFamilyPdu.members, Pdu.members, PduSuperclass.members]))) ?_
    refine .bind (.arg (p := receivedPower) (by simp [attrOf_putAttr_isSome, attrOf, ReceiverPdu.members, RadioCommunicationsFamilyPdu.members, Pdu.members, PduSuperclass.members])) ?_
    refine .bind (.or (p := transmitterEntityID) EntityIdentifier.makesNew (by simp [attrOf_putAttr_isSome, attrOf, ReceiverPdu.members, RadioCommunicationsFamilyPdu.members, Pdu.members, PduSuperclass.members])) ?_
    exact .cast (.arg (p := transmitterRadioId) (by simp [attrOf_putAttr_isSome, attrOf, ReceiverPdu.members, RadioCommunicationsFamilyPdu.members, Pdu.members, PduSuperclass.members]))
      (by simp [putAttr, ReceiverPdu.members, RadioCommunicationsFamilyPdu.members, Pdu.members, PduSuperclass.members, Tree.ints, Tree.objs, Tree.optInt, Tree.optObj, Tree.intOr, Tree.optFloat, Tree.noneOr, IntercomParametersValue.tree])
  exact .new a

theorem Ctor.ReceiverPdu.lawful : Ctor.ReceiverPdu.Lawful := by
  intro kv kt e ok
  refine .select [("receiverState", .int 0), ("receivedPower", .float 0x0000000000000000), ("transmitterEntityID", .none), ("transmitterRadioId", .int 0)] (by simp) e ?_
  exact .cast (ReceiverPdu.builds ((attrOf "receiverState" kv).getD (.sc (.int 0)), (attrOf "receiverState" kt).getD (.sc (.int 0))) ((attrOf "receivedPower" kv).getD (.sc (.float 0x0000000000000000)), (attrOf "receivedPower" kt).getD (.sc (.float 0x0000000000000000))) ((attrOf "transmitterEntityID" kv).getD (.sc (.none)), (attrOf "transmitterEntityID" kt).getD (.sc (.none))) ((attrOf "transmitterRadioId" kv).getD (.sc (.int 0)), (attrOf "transmitterRadioId" kt).getD (.sc (.int 0)))) (by
    simp [Ctor.built, Ctor.ReceiverPdu, HeapClass.ReceiverPdu, InPlace.value, InPlace.ReceiverPdu, Codec.ReceiverPdu, ReceiverPdu.init, Param.put, Tree.change, value_asIs, value_orFresh, value_copy, Tree.or_list, ReceiverPdu.members, RadioCommunicationsFamilyPdu.members, Pdu.members, PduSuperclass.members, Tree.ints, Tree.objs, Tree.optInt, Tree.optObj, Tree.intOr, Tree.optFloat, Tree.noneOr, IntercomParametersValue.tree])

theorem UaPdu.builds (emittingEntityID eventID stateChangeIndicator passiveParameterIndex propulsionPlantConfiguration shaftRPMs apaData emitterSystems : Val × Tree) :
    Builds (UaPdu.newHeap emittingEntityID.1 eventID.1 stateChangeIndicator.1 passiveParameterIndex.1 propulsionPlantConfiguration.1 shaftRPMs.1 apaData.1 emitterSystems.1) [emittingEntityID, eventID, stateChangeIndicator, passiveParameterIndex, propulsionPlantConfiguration, shaftRPMs, apaData, emitterSystems]
      (.obj (DistributedEmissionsFamilyPdu.members { pduType := 29, protocolFamily := 6 } ++ ([("emittingEntityID", emittingEntityID.2.or (.obj (EntityIdentifier.members EntityIdentifier.init))),
      ("eventID", eventID.2.or (.obj (EventIdentifier.members EventIdentifier.init))),
      ("stateChangeIndicator", stateChangeIndicator.2), ("pad", .sc (.int 0)),
      ("passiveParameterIndex", passiveParameterIndex.2),
      ("propulsionPlantConfiguration", propulsionPlantConfiguration.2),
      ("shaftRPMs", shaftRPMs.2.or (.list [])), ("apaData", apaData.2.or (.list [])),
      ("emitterSystems", emitterSystems.2.or (.list []))] : List (String × Tree)))) := by
  have a : Fills (fun self => UaPdu.initHeap self emittingEntityID.1 eventID.1 stateChangeIndicator.1 passiveParameterIndex.1 propulsionPlantConfiguration.1 shaftRPMs.1 apaData.1 emitterSystems.1) [emittingEntityID, eventID, stateChangeIndicator, passiveParameterIndex, propulsionPlantConfiguration, shaftRPMs, apaData, emitterSystems]
      (([("protocolVersion", .sc .absent), ("exerciseID", .sc .absent), ("pduType", .sc (.int 29)), ("protocolFamily", .sc (.int 6)), ("timestamp", .sc .absent), ("length", .sc .absent)] : List (String × Tree)) ++
      (([("pduStatus", .sc .absent), ("padding", .sc .absent)] : List (String × Tree)) ++
      ([] ++
      (([("emittingEntityID", .sc .absent), ("eventID", .sc .absent), ("stateChangeIndicator", .sc .absent), ("pad", .sc .absent), ("passiveParameterIndex", .sc .absent), ("propulsionPlantConfiguration", .sc .absent), ("shaftRPMs", .sc .absent), ("apaData", .sc .absent), ("emitterSystems", .sc .absent)] : List (String × Tree)) ++ [])))) []
      (DistributedEmissionsFamilyPdu.members { pduType := 29, protocolFamily := 6 } ++ ([("emittingEntityID", emittingEntityID.2.or (.obj (EntityIdentifier.members EntityIdentifier.init))),
      ("eventID", eventID.2.or (.obj (EventIdentifier.members EventIdentifier.init))),
      ("stateChangeIndicator", stateChangeIndicator.2), ("pad", .sc (.int 0)),
      ("passiveParameterIndex", passiveParameterIndex.2),
      ("propulsionPlantConfiguration", propulsionPlantConfiguration.2),
      ("shaftRPMs", shaftRPMs.2.or (.list [])), ("apaData", apaData.2.or (.list [])),
      ("emitterSystems", emitterSystems.2.or (.list []))] : List (String × Tree))) := by
    unfold UaPdu.initHeap
    refine .bind (.inits (DistributedEmissionsFamilyPdu.inits 29 6 _)) ?_
    refine .bind (.or (p := emittingEntityID) EntityIdentifier.makesNew (by simp [attrOf_putAttr_isSome, attrOf, UaPdu.members, DistributedEmissionsFamilyPdu.members, Pdu.members, PduSuperclass.members])) ?_
    refine .bind (.or (p := eventID) EventIdentifier.makesNew (by simp [attrOf_putAttr_isSome, attrOf, UaPdu.members, DistributedEmissionsFamilyPdu.members, Pdu.members, PduSuperclass.members])) ?_
    refine .bind (.arg (p := stateChangeIndicator) (by simp [attrOf_putAttr_isSome, attrOf, UaPdu.members, DistributedEmissionsFamilyPdu.members, Pdu.members, PduSuperclass.members])) ?_
    refine .bind (.inits (.set' (by simp [attrOf_putAttr_isSome, attrOf, UaPdu.members, DistributedEmissionsFamilyPdu.members, Pdu.members, PduSuperclass.members]))) ?_
    refine .bind (.arg (p := passiveParameterIndex) (by simp [attrOf_putAttr_isSome, attrOf, UaPdu.members, DistributedEmissionsFamilyPdu.members, Pdu.members, PduSuperclass.members])) ?_
    refine .bind (.arg (p := propulsionPlantConfiguration) (by simp [attrOf_putAttr_isSome, attrOf, UaPdu.members, DistributedEmissionsFamilyPdu.members, Pdu.members, PduSuperclass.members])) ?_
    refine .bind (.or (p := shaftRPMs) .empty (by simp [attrOf_putAttr_isSome, attrOf, UaPdu.members, DistributedEmissionsFamilyPdu.members, Pdu.members, PduSuperclass.members])) ?_
    refine .bind (.or (p := apaData) .empty (by simp [attrOf_putAttr_isSome, attrOf, UaPdu.members, DistributedEmissionsFamilyPdu.members, Pdu.members, PduSuperclass.members])) ?_
    exact .cast (.or (p := emitterSystems) .empty (by simp [attrOf_putAttr_isSome, attrOf, UaPdu.members, DistributedEmissionsFamilyPdu.members, Pdu.members, PduSuperclass.members]))
      (by simp [putAttr, UaPdu.members, DistributedEmissionsFamilyPdu.members, Pdu.members, PduSuperclass.members, Tree.ints, Tree.objs, Tree.optInt, Tree.optObj, Tree.intOr, Tree.optFloat, Tree.noneOr, IntercomParametersValue.tree])
  exact .new a

theorem Ctor.UaPdu.lawful : Ctor.UaPdu.Lawful := by
  intro kv kt e ok
  refine .select [("emittingEntityID", .none), ("eventID", .none), ("stateChangeIndicator", .int 0), ("passiveParameterIndex", .int 0), ("propulsionPlantConfiguration", .int 0), ("shaftRPMs", .none), ("apaData", .none), ("emitterSystems", .none)] (by simp) e ?_
  exact .cast (UaPdu.builds ((attrOf "emittingEntityID" kv).getD (.sc (.none)), (attrOf "emittingEntityID" kt).getD (.sc (.none))) ((attrOf "eventID" kv).getD (.sc (.none)), (attrOf "eventID" kt).getD (.sc (.none))) ((attrOf "stateChangeIndicator" kv).getD (.sc (.int 0)), (attrOf "stateChangeIndicator" kt).getD (.sc (.int 0))) ((attrOf "passiveParameterIndex" kv).getD (.sc (.int 0)), (attrOf "passiveParameterIndex" kt).getD (.sc (.int 0))) ((attrOf "propulsionPlantConfiguration" kv).getD (.sc (.int 0)), (attrOf "propulsionPlantConfiguration" kt).getD (.sc (.int 0))) ((attrOf "shaftRPMs" kv).getD (.sc (.none)), (attrOf "shaftRPMs" kt).getD (.sc (.none))) ((attrOf "apaData" kv).getD (.sc (.none)), (attrOf "apaData" kt).getD (.sc (.none))) ((attrOf "emitterSystems" kv).getD (.sc (.none)), (attrOf "emitterSystems" kt).getD (.sc (.none)))) (by
    simp [Ctor.built, Ctor.UaPdu, HeapClass.UaPdu, InPlace.value, InPlace.UaPdu, Codec.UaPdu, UaPdu.init, Param.put, Tree.change, value_asIs, value_orFresh, value_copy, Tree.or_list, UaPdu.members, DistributedEmissionsFamilyPdu.members, Pdu.members, PduSuperclass.members, Tree.ints, Tree.objs, Tree.optInt, Tree.optObj, Tree.intOr, Tree.optFloat, Tree.noneOr, IntercomParametersValue.tree])

theorem SignalPdu.builds (entityID radioID encodingScheme tdlType sampleRate samples data : Val × Tree) :
    Builds (SignalPdu.newHeap entityID.1 radioID.1 encodingScheme.1 tdlType.1 sampleRate.1 samples.1 data.1) [entityID, radioID, encodingScheme, tdlType, sampleRate, samples, data]
      (.obj (RadioCommunicationsFamilyPdu.members { pduType := 26, protocolFamily := 4 } ++ ([("entityID", entityID.2.or (.obj (EntityIdentifier.members EntityIdentifier.init))),
      ("radioID", radioID.2), ("encodingScheme", encodingScheme.2), ("tdlType", tdlType.2),
      ("sampleRate", sampleRate.2), ("samples", samples.2), ("data", data.2.or (.list []))] : List (String × Tree)))) := by
  have a : Fills (fun self => SignalPdu.initHeap self entityID.1 radioID.1 encodingScheme.1 tdlType.1 sampleRate.1 samples.1 data.1) [entityID, radioID, encodingScheme, tdlType, sampleRate, samples, data]
      (([("protocolVersion", .sc .absent), ("exerciseID", .sc .absent), ("pduType", .sc (.int 26)), ("protocolFamily", .sc (.int 4)), ("timestamp", .sc .absent), ("length", .sc .absent)] : List (String × Tree)) ++
      (([("pduStatus", .sc .absent), ("padding", .sc .absent)] : List (String × Tree)) ++
      ([] ++
      (([("entityID", .sc .absent), ("radioID", .sc .absent), ("encodingScheme", .sc .absent), ("tdlType", .sc .absent), ("sampleRate", .sc .absent), ("samples", .sc .absent), ("data", .sc .absent)] : List (String × Tree)) ++ [])))) []
      (RadioCommunicationsFamilyPdu.members { pduType := 26, protocolFamily := 4 } ++ ([("entityID", entityID.2.or (.obj (EntityIdentifier.members EntityIdentifier.init))),
      ("radioID", radioID.2), ("encodingScheme", encodingScheme.2), ("tdlType", tdlType.2),
      ("sampleRate", sampleRate.2), ("samples", samples.2), ("data", data.2.or (.list []))] : List (String × Tree))) := by
    unfold SignalPdu.initHeap
    refine .bind (.inits (RadioCommunicationsFamilyPdu.inits 26 4 _)) ?_
    refine .bind (.or (p := entityID) EntityIdentifier.makesNew (by simp [attrOf_putAttr_isSome, attrOf, SignalPdu.members, RadioCommunicationsFamilyPdu.members, Pdu.members, PduSuperclass.members])) ?_
    refine .bind (.arg (p := radioID) (by simp [attrOf_putAttr_isSome, attrOf, SignalPdu.members, RadioCommunicationsFamilyPdu.members, Pdu.members, PduSuperclass.members])) ?_
    refine .bind (.arg (p := encodingScheme) (by simp [attrOf_putAttr_isSome, attrOf, SignalPdu.members, RadioCommunicationsFamilyPdu.members, Pdu.members, PduSuperclass.members])) ?_
    refine .bind (.arg (p := tdlType) (by simp [attrOf_putAttr_isSome, attrOf, SignalPdu.members, RadioCommunicationsFamilyPdu.members, Pdu.members, PduSuperclass.members])) ?_
    refine .bind (.arg (p := sampleRate) (by simp [attrOf_putAttr_isSome, attrOf, SignalPdu.members, RadioCommunicationsFamilyPdu.members, Pdu.members, PduSuperclass.members])) ?_
    refine .bind (.arg (p := samples) (by simp [attrOf_putAttr_isSome, attrOf, SignalPdu.members, RadioCommunicationsFamilyPdu.members, Pdu.members, PduSuperclass.members])) ?_
    exact .cast (.or (p := data) .empty (by simp [attrOf_putAttr_isSome, attrOf, SignalPdu.members, RadioCommunicationsFamilyPdu.members, Pdu.members, PduSuperclass.members]))
      (by simp [putAttr, SignalPdu.members, RadioCommunicationsFamilyPdu.members, Pdu.members, PduSuperclass.members, Tree.ints, Tree.objs, Tree.optInt, Tree.optObj, Tree.intOr, Tree.optFloat, Tree.noneOr, IntercomParametersValue.tree])
  exact .new a

theorem Ctor.SignalPdu.lawful : Ctor.SignalPdu.Lawful := by
  intro kv kt e ok
  refine .select [("entityID", .none), ("radioID", .int 0), ("encodingScheme", .int 0), ("tdlType", .int 0), ("sampleRate", .int 0), ("samples", .int 0), ("data", .none)] (by simp) e ?_
  exact .cast (SignalPdu.builds ((attrOf "entityID" kv).getD (.sc (.none)), (attrOf "entityID" kt).getD (.sc (.none))) ((attrOf "radioID" kv).getD (.sc (.int 0)), (attrOf "radioID" kt).getD (.sc (.int 0))) ((attrOf "encodingScheme" kv).getD (.sc (.int 0)), (attrOf "encodingScheme" kt).getD (.sc (.int 0))) ((attrOf "tdlType" kv).getD (.sc (.int 0)), (attrOf "tdlType" kt).getD (.sc (.int 0))) ((attrOf "sampleRate" kv).getD (.sc (.int 0)), (attrOf "sampleRate" kt).getD (.sc (.int 0))) ((attrOf "samples" kv).getD (.sc (.int 0)), (attrOf "samples" kt).getD (.sc (.int 0))) ((attrOf "data" kv).getD (.sc (.none)), (attrOf "data" kt).getD (.sc (.none)))) (by
    simp [Ctor.built, Ctor.SignalPdu, HeapClass.SignalPdu, InPlace.value, InPlace.SignalPdu, Codec.SignalPdu, SignalPdu.init, Param.put, Tree.change, value_asIs, value_orFresh, value_copy, Tree.or_list, SignalPdu.members, RadioCommunicationsFamilyPdu.members, Pdu.members, PduSuperclass.members, Tree.ints, Tree.objs, Tree.optInt, Tree.optObj, Tree.intOr, Tree.optFloat, Tree.noneOr, IntercomParametersValue.tree])

theorem RemoveEntityReliablePdu.builds (requiredReliabilityService requestID : Val × Tree) :
    Builds (RemoveEntityReliablePdu.newHeap requiredReliabilityService.1 requestID.1) [requiredReliabilityService, requestID]
      (.obj (SimulationManagementWithReliabilityFamilyPdu.members { pduType := 52, protocolFamily := 10 } ++ ([("requiredReliabilityService", requiredReliabilityService.2), ("pad1", .sc (.int 0)),
      ("pad2", .sc (.int 0)), ("requestID", requestID.2)] : List (String × Tree)))) := by
  have a : Fills (fun self => RemoveEntityReliablePdu.initHeap self requiredReliabilityService.1 requestID.1) [requiredReliabilityService, requestID]
      (([("protocolVersion", .sc .absent), ("exerciseID", .sc .absent), ("pduType", .sc (.int 52)), ("protocolFamily", .sc (.int 10)), ("timestamp", .sc .absent), ("length", .sc .absent)] : List (String × Tree)) ++
      (([("pduStatus", .sc .absent), ("padding", .sc .absent)] : List (String × Tree)) ++
      (([("originatingEntityID", .sc .absent), ("receivingEntityID", .sc .absent)] : List (String × Tree)) ++
      (([("requiredReliabilityService", .sc .absent), ("pad1", .sc .absent), ("pad2", .sc .absent), ("requestID", .sc .absent)] : List (String × Tree)) ++ [])))) []
      (SimulationManagementWithReliabilityFamilyPdu.members { pduType := 52, protocolFamily := 10 } ++ ([("requiredReliabilityService", requiredReliabilityService.2), ("pad1", .sc (.int 0)),
      ("pad2", .sc (.int 0)), ("requestID", requestID.2)] : List (String × Tree))) := by
    unfold RemoveEntityReliablePdu.initHeap
    refine .bind (.inits (SimulationManagementWithReliabilityFamilyPdu.inits 52 10 _)) ?_
    refine .bind (.arg (p := requiredReliabilityService) (by simp [attrOf_putAttr_isSome, attrOf, RemoveEntityReliablePdu.members, SimulationManagementWithReliabilityFamilyPdu.members, Pdu.members, PduSuperclass.members])) ?_
    refine .bind (.inits (.set' (by simp [attrOf_putAttr_isSome, attrOf, RemoveEntityReliablePdu.members, SimulationManagementWithReliabilityFamilyPdu.members, Pdu.members, PduSuperclass.members]))) ?_
    refine .bind (.inits (.set' (by simp [attrOf_putAttr_isSome, attrOf, RemoveEntityReliablePdu.members, SimulationManagementWithReliabilityFamilyPdu.members, Pdu.members, PduSuperclass.members]))) ?_
    exact .cast (.arg (p := requestID) (by simp [attrOf_putAttr_isSome, attrOf, RemoveEntityReliablePdu.members, SimulationManagementWithReliabilityFamilyPdu.members, Pdu.members, PduSuperclass.members]))
      (by simp [putAttr, RemoveEntityReliablePdu.members, SimulationManagementWithReliabilityFamilyPdu.members, Pdu.members, PduSuperclass.members, Tree.ints, Tree.objs, Tree.optInt, Tree.optObj, Tree.intOr, Tree.optFloat, Tree.noneOr, IntercomParametersValue.tree])
  exact .new a

theorem Ctor.RemoveEntityReliablePdu.lawful : Ctor.RemoveEntityReliablePdu.Lawful := by
  intro kv kt e ok
  refine .select [("requiredReliabilityService", .int 0), ("requestID", .int 0)] (by simp) e ?_
  exact .cast (RemoveEntityReliablePdu.builds ((attrOf "requiredReliabilityService" kv).getD (.sc (.int 0)), (attrOf "requiredReliabilityService" kt).getD (.sc (.int 0))) ((attrOf "requestID" kv).getD (.sc (.int 0)), (attrOf "requestID" kt).getD (.sc (.int 0)))) (by
    simp [Ctor.built, Ctor.RemoveEntityReliablePdu, HeapClass.RemoveEntityReliablePdu, InPlace.value, InPlace.RemoveEntityReliablePdu, Codec.RemoveEntityReliablePdu, RemoveEntityReliablePdu.init, Param.put, Tree.change, value_asIs, value_orFresh, value_copy, Tree.or_list, RemoveEntityReliablePdu.members, SimulationManagementWithReliabilityFamilyPdu.members, Pdu.members, PduSuperclass.members, Tree.ints, Tree.objs, Tree.optInt, Tree.optObj, Tree.intOr, Tree.optFloat, Tree.noneOr, IntercomParametersValue.tree])

theorem SeesPdu.builds (originatingEntityID infraredSignatureRepresentationIndex acousticSignatureRepresentationIndex radarCrossSectionSignatureRepresentationIndex propulsionSystemData vectoringSystemData : Val × Tree) :
    Builds (SeesPdu.newHeap originatingEntityID.1 infraredSignatureRepresentationIndex.1 acousticSignatureRepresentationIndex.1 radarCrossSectionSignatureRepresentationIndex.1 propulsionSystemData.1 vectoringSystemData.1) [originatingEntityID, infraredSignatureRepresentationIndex, acousticSignatureRepresentationIndex, radarCrossSectionSignatureRepresentationIndex, propulsionSystemData, vectoringSystemData]
      (.obj (DistributedEmissionsFamilyPdu.members { pduType := 30, protocolFamily := 6 } ++ ([("orginatingEntityID", originatingEntityID.2.or (.obj (EntityIdentifier.members EntityIdentifier.init))),
      ("infraredSignatureRepresentationIndex", infraredSignatureRepresentationIndex.2),
      ("acousticSignatureRepresentationIndex", acousticSignatureRepresentationIndex.2),
      ("radarCrossSectionSignatureRepresentationIndex", radarCrossSectionSignatureRepresentationIndex.2),
      ("propulsionSystemData", propulsionSystemData.2.or (.list [])),
      ("vectoringSystemData", vectoringSystemData.2.or (.list []))] : List (String × Tree)))) := by
  have a : Fills (fun self => SeesPdu.initHeap self originatingEntityID.1 infraredSignatureRepresentationIndex.1 acousticSignatureRepresentationIndex.1 radarCrossSectionSignatureRepresentationIndex.1 propulsionSystemData.1 vectoringSystemData.1) [originatingEntityID, infraredSignatureRepresentationIndex, acousticSignatureRepresentationIndex, radarCrossSectionSignatureRepresentationIndex, propulsionSystemData, vectoringSystemData]
      (([("protocolVersion", .sc .absent), ("exerciseID", .sc .absent), ("pduType", .sc (.int 30)), ("protocolFamily", .sc (.int 6)), ("timestamp", .sc .absent), ("length", .sc .absent)] : List (String × Tree)) ++
      (([("pduStatus", .sc .absent), ("padding", .sc .absent)] : List (String × Tree)) ++
      ([] ++
      (([("orginatingEntityID", .sc .absent), ("infraredSignatureRepresentationIndex", .sc .absent), ("acousticSignatureRepresentationIndex", .sc .absent), ("radarCrossSectionSignatureRepresentationIndex", .sc .absent), ("propulsionSystemData", .sc .absent), ("vectoringSystemData", .sc .absent)] : List (String × Tree)) ++ [])))) []
      (DistributedEmissionsFamilyPdu.members { pduType := 30, protocolFamily := 6 } ++ ([("orginatingEntityID", originatingEntityID.2.or (.obj (EntityIdentifier.members EntityIdentifier.init))),
      ("infraredSignatureRepresentationIndex", infraredSignatureRepresentationIndex.2),
      ("acousticSignatureRepresentationIndex", acousticSignatureRepresentationIndex.2),
      ("radarCrossSectionSignatureRepresentationIndex", radarCrossSectionSignatureRepresentationIndex.2),
      ("propulsionSystemData", propulsionSystemData.2.or (.list [])),
      ("vectoringSystemData", vectoringSystemData.2.or (.list []))] : List (String × Tree))) := by
    unfold SeesPdu.initHeap
    refine .bind (.inits (DistributedEmissionsFamilyPdu.inits 30 6 _)) ?_
    refine .bind (.or (p := originatingEntityID) EntityIdentifier.makesNew (by simp [attrOf_putAttr_isSome, attrOf, SeesPdu.members, DistributedEmissionsFamilyPdu.members, Pdu.members, PduSuperclass.members])) ?_
    refine .bind (.arg (p := infraredSignatureRepresentationIndex) (by simp [attrOf_putAttr_isSome, attrOf, SeesPdu.members, DistributedEmissionsFamilyPdu.members, Pdu.members, PduSuperclass.members])) ?_
    refine .bind (.arg (p := acousticSignatureRepresentationIndex) (by simp [attrOf_putAttr_isSome, attrOf, SeesPdu.members, DistributedEmissionsFamilyPdu.members, Pdu.members, PduSuperclass.members])) ?_
    refine .bind (.arg (p := radarCrossSectionSignatureRepresentationIndex) (by simp [attrOf_putAttr_isSome, attrOf, SeesPdu.members, DistributedEmissionsFamilyPdu.members, Pdu.members, PduSuperclass.members])) ?_
    refine .bind (.or (p := propulsionSystemData) .empty (by simp [attrOf_putAttr_isSome, attrOf, SeesPdu.members, DistributedEmissionsFamilyPdu.members, Pdu.members, PduSuperclass.members])) ?_
    exact .cast (.or (p := vectoringSystemData) .empty (by simp [attrOf_putAttr_isSome, attrOf, SeesPdu.members, DistributedEmissionsFamilyPdu.members, Pdu.members, PduSuperclass.members]))
      (by simp [putAttr, SeesPdu.members, DistributedEmissionsFamilyPdu.members, Pdu.members, PduSuperclass.members, Tree.ints, Tree.objs, Tree.optInt, Tree.optObj, Tree.intOr, Tree.optFloat, Tree.noneOr, IntercomParametersValue.tree])
  exact .new a

theorem Ctor.SeesPdu.lawful : Ctor.SeesPdu.Lawful := by
  intro kv kt e ok
  refine .select [("originatingEntityID", .none), ("infraredSignatureRepresentationIndex", .int 0), ("acousticSignatureRepresentationIndex", .int 0), ("radarCrossSectionSignatureRepresentationIndex", .int 0), ("propulsionSystemData", .none), ("vectoringSystemData", .none)] (by simp) e ?_
  exact .cast (SeesPdu.builds ((attrOf "originatingEntityID" kv).getD (.sc (.none)), (attrOf "originatingEntityID" kt).getD (.sc (.none))) ((attrOf "infraredSignatureRepresentationIndex" kv).getD (.sc (.int 0)), (attrOf "infraredSignatureRepresentationIndex" kt).getD (.sc (.int 0))) ((attrOf "acousticSignatureRepresentationIndex" kv).getD (.sc (.int 0)), (attrOf "acousticSignatureRepresentationIndex" kt).getD (.sc (.int 0))) ((attrOf "radarCrossSectionSignatureRepresentationIndex" kv).getD (.sc (.int 0)), (attrOf "radarCrossSectionSignatureRepresentationIndex" kt).getD (.sc (.int 0))) ((attrOf "propulsionSystemData" kv).getD (.sc (.none)), (attrOf "propulsionSystemData" kt).getD (.sc (.none))) ((attrOf "vectoringSystemData" kv).getD (.sc (.none)), (attrOf "vectoringSystemData" kt).getD (.sc (.none)))) (by
    simp [Ctor.built, Ctor.SeesPdu, HeapClass.SeesPdu, InPlace.value, InPlace.SeesPdu, Codec.SeesPdu, SeesPdu.init, Param.put, Tree.change, value_asIs, value_orFresh, value_copy, Tree.or_list, SeesPdu.members, DistributedEmissionsFamilyPdu.members, Pdu.members, PduSuperclass.members, Tree.ints, Tree.objs, Tree.optInt, Tree.optObj, Tree.intOr, Tree.optFloat, Tree.noneOr, IntercomParametersValue.tree])

theorem CreateEntityReliablePdu.builds (requiredReliabilityService requestID : Val × Tree) :
    Builds (CreateEntityReliablePdu.newHeap requiredReliabilityService.1 requestID.1) [requiredReliabilityService, requestID]
      (.obj (SimulationManagementWithReliabilityFamilyPdu.members { pduType := 51, protocolFamily := 10 } ++ ([("requiredReliabilityService", requiredReliabilityService.2), ("pad1", .sc (.int 0)),
      ("pad2", .sc (.int 0)), ("requestID", requestID.2)] : List (String × Tree)))) := by
  have a : Fills (fun self => CreateEntityReliablePdu.initHeap self requiredReliabilityService.1 requestID.1) [requiredReliabilityService, requestID]
      (([("protocolVersion", .sc .absent), ("exerciseID", .sc .absent), ("pduType", .sc (.int 51)), ("protocolFamily", .sc (.int 10)), ("timestamp", .sc .absent), ("length", .sc .absent)] : List (String × Tree)) ++
      (([("pduStatus", .sc .absent), ("padding", .sc .absent)] : List (String × Tree)) ++
      (([("originatingEntityID", .sc .absent), ("receivingEntityID", .sc .absent)] : List (String × Tree)) ++
      (([("requiredReliabilityService", .sc .absent), ("pad1", .sc .absent), ("pad2", .sc .absent), ("requestID", .sc .absent)] : List (String × Tree)) ++ [])))) []
      (SimulationManagementWithReliabilityFamilyPdu.members { pduType := 51, protocolFamily := 10 } ++ ([("requiredReliabilityService", requiredReliabilityService.2), ("pad1", .sc (.int 0)),
      ("pad2", .sc (.int 0)), ("requestID", requestID.2)] : List (String × Tree))) := by
    unfold CreateEntityReliablePdu.initHeap
    refine .bind (.inits (SimulationManagementWithReliabilityFamilyPdu.inits 51 10 _)) ?_
    refine .bind (.arg (p := requiredReliabilityService) (by simp [attrOf_putAttr_isSome, attrOf, CreateEntityReliablePdu.members, SimulationManagementWithReliabilityFamilyPdu.members, Pdu.members, PduSuperclass.members])) ?_
    refine .bind (.inits (.set' (by simp [attrOf_putAttr_isSome, attrOf, CreateEntityReliablePdu.members, SimulationManagementWithReliabilityFamilyPdu.members, Pdu.members, PduSuperclass.members]))) ?_
    refine .bind (.inits (.set' (by simp [attrOf_putAttr_isSome, attrOf, CreateEntityReliablePdu.members, SimulationManagementWithReliabilityFamilyPdu.members, Pdu.members, PduSuperclass.members]))) ?_
    exact .cast (.arg (p := requestID) (by simp [attrOf_putAttr_isSome, attrOf, CreateEntityReliablePdu.members, SimulationManagementWithReliabilityFamilyPdu.members, Pdu.members, PduSuperclass.members]))
      (by simp [putAttr, CreateEntityReliablePdu.members, SimulationManagementWithReliabilityFamilyPdu.members, Pdu.members, PduSuperclass.members, Tree.ints, Tree.objs, Tree.optInt, Tree.optObj, Tree.intOr, Tree.optFloat, Tree.noneOr, IntercomParametersValue.tree])
  exact .new a

theorem Ctor.CreateEntityReliablePdu.lawful : Ctor.CreateEntityReliablePdu.Lawful := by
  intro kv kt e ok
  refine .select [("requiredReliabilityService", .int 0), ("requestID", .int 0)] (by simp) e ?_
  exact .cast (CreateEntityReliablePdu.builds ((attrOf "requiredReliabilityService" kv).getD (.sc (.int 0)), (attrOf "requiredReliabilityService" kt).getD (.sc (.int 0))) ((attrOf "requestID" kv).getD (.sc (.int 0)), (attrOf "requestID" kt).getD (.sc (.int 0)))) (by
    simp [Ctor.built, Ctor.CreateEntityReliablePdu, HeapClass.CreateEntityReliablePdu, InPlace.value, InPlace.CreateEntityReliablePdu, Codec.CreateEntityReliablePdu, CreateEntityReliablePdu.init, Param.put, Tree.change, value_asIs, value_orFresh, value_copy, Tree.or_list, CreateEntityReliablePdu.members, SimulationManagementWithReliabilityFamilyPdu.members, Pdu.members, PduSuperclass.members, Tree.ints, Tree.objs, Tree.optInt, Tree.optObj, Tree.intOr, Tree.optFloat, Tree.noneOr, IntercomParametersValue.tree])

theorem StopFreezeReliablePdu.builds (realWorldTime reason frozenBehavior requiredReliabilityService requestID : Val × Tree) :
    Builds (StopFreezeReliablePdu.newHeap realWorldTime.1 reason.1 frozenBehavior.1 requiredReliabilityService.1 requestID.1) [realWorldTime, reason, frozenBehavior, requiredReliabilityService, requestID]
      (.obj (SimulationManagementWithReliabilityFamilyPdu.members { pduType := 54, protocolFamily := 10 } ++ ([("realWorldTime", realWorldTime.2.or (.obj (ClockTime.members ClockTime.init))), ("reason", reason.2),
      ("frozenBehavior", frozenBehavior.2), ("requiredReliablityService", requiredReliabilityService.2),
      ("pad1", .sc (.int 0)), ("requestID", requestID.2)] : List (String × Tree)))) := by
  have a : Fills (fun self => StopFreezeReliablePdu.initHeap self realWorldTime.1 reason.1 frozenBehavior.1 requiredReliabilityService.1 requestID.1) [realWorldTime, reason, frozenBehavior, requiredReliabilityService, requestID]
      (([("protocolVersion", .sc .absent), ("exerciseID", .sc .absent), ("pduType", .sc (.int 54)), ("protocolFamily", .sc (.int 10)), ("timestamp", .sc .absent), ("length", .sc .absent)] : List (String × Tree)) ++
      (([("pduStatus", .sc .absent), ("padding", .sc .absent)] : List (String × Tree)) ++
      (([("originatingEntityID", .sc .absent), ("receivingEntityID", .sc .absent)] : List (String × Tree)) ++
      (([("realWorldTime", .sc .absent), ("reason", .sc .absent), ("frozenBehavior", .sc .absent), ("requiredReliablityService", .sc .absent), ("pad1", .sc .absent), ("requestID", .sc .absent)] : List (String × Tree)) ++ [])))) []
      (SimulationManagementWithReliabilityFamilyPdu.members { pduType := 54, protocolFamily := 10 } ++ ([("realWorldTime", realWorldTime.2.or (.obj (ClockTime.members ClockTime.init))), ("reason", reason.2),
      ("frozenBehavior", frozenBehavior.2), ("requiredReliablityService", requiredReliabilityService.2),
      ("pad1", .sc (.int 0)), ("requestID", requestID.2)] : List (String × Tree))) := by
    unfold StopFreezeReliablePdu.initHeap
    refine .bind (.inits (SimulationManagementWithReliabilityFamilyPdu.inits 54 10 _)) ?_
    refine .bind (.or (p := realWorldTime) ClockTime.makesNew (by simp [attrOf_putAttr_isSome, attrOf, StopFreezeReliablePdu.members, SimulationManagementWithReliabilityFamilyPdu.members, Pdu.members, PduSuperclass.members])) ?_
    refine .bind (.arg (p := reason) (by simp [attrOf_putAttr_isSome, attrOf, StopFreezeReliablePdu.members, SimulationManagementWithReliabilityFamilyPdu.members, Pdu.members, PduSuperclass.members])) ?_
    refine .bind (.arg (p := frozenBehavior) (by simp [attrOf_putAttr_isSome, attrOf, StopFreezeReliablePdu.members, SimulationManagementWithReliabilityFamilyPdu.members, Pdu.members, PduSuperclass.members])) ?_
    refine .bind (.arg (p := requiredReliabilityService) (by simp [attrOf_putAttr_isSome, attrOf, StopFreezeReliablePdu.members, SimulationManagementWithReliabilityFamilyPdu.members, Pdu.members, PduSuperclass.members])) ?_
    refine .bind (.inits (.set' (by simp [attrOf_putAttr_isSome, attrOf, StopFreezeReliablePdu.members, SimulationManagementWithReliabilityFamilyPdu.members, Pdu.members, PduSuperclass.members]))) ?_
    exact .cast (.arg (p := requestID) (by simp [attrOf_putAttr_isSome, attrOf, StopFreezeReliablePdu.members, SimulationManagementWithReliabilityFamilyPdu.members, Pdu.members, PduSuperclass.members]))
      (by simp [putAttr, StopFreezeReliablePdu.members, SimulationManagementWithReliabilityFamilyPdu.members, Pdu.members, PduSuperclass.members, Tree.ints, Tree.objs, Tree.optInt, Tree.optObj, Tree.intOr, Tree.optFloat, Tree.noneOr, IntercomParametersValue.tree])
  exact .new a

theorem Ctor.StopFreezeReliablePdu.lawful : Ctor.StopFreezeReliablePdu.Lawful := by
  intro kv kt e ok
  refine .select [("realWorldTime", .none), ("reason", .int 0), ("frozenBehavior", .int 0), ("requiredReliabilityService", .int 0), ("requestID", .int 0)] (by simp) e ?_
  exact .cast (StopFreezeReliablePdu.builds ((attrOf "realWorldTime" kv).getD (.sc (.none)), (attrOf "realWorldTime" kt).getD (.sc (.none))) ((attrOf "reason" kv).getD (.sc (.int 0)), (attrOf "reason" kt).getD (.sc (.int 0))) ((attrOf "frozenBehavior" kv).getD (.sc (.int 0)), (attrOf "frozenBehavior" kt).getD (.sc (.int 0))) ((attrOf "requiredReliabilityService" kv).getD (.sc (.int 0)), (attrOf "requiredReliabilityService" kt).getD (.sc (.int 0))) ((attrOf "requestID" kv).getD (.sc (.int 0)), (attrOf "requestID" kt).getD (.sc (.int 0)))) (by
    simp [Ctor.built, Ctor.StopFreezeReliablePdu, HeapClass.StopFreezeReliablePdu, InPlace.value, InPlace.StopFreezeReliablePdu, Codec.StopFreezeReliablePdu, StopFreezeReliablePdu.init, Param.put, Tree.change, value_asIs, value_orFresh, value_copy, Tree.or_list, StopFreezeReliablePdu.members, SimulationManagementWithReliabilityFamilyPdu.members, Pdu.members, PduSuperclass.members, Tree.ints, Tree.objs, Tree.optInt, Tree.optObj, Tree.intOr, Tree.optFloat, Tree.noneOr, IntercomParametersValue.tree])

theorem EventReportReliablePdu.builds (eventType fixedDatumRecords variableDatumRecords : Val × Tree) :
    Builds (EventReportReliablePdu.newHeap eventType.1 fixedDatumRecords.1 variableDatumRecords.1) [eventType, fixedDatumRecords, variableDatumRecords]
      (.obj (SimulationManagementWithReliabilityFamilyPdu.members { pduType := 61, protocolFamily := 10 } ++ ([("eventType", eventType.2), ("pad1", .sc (.int 0)),
      ("_datums", .obj [("fixedDatumRecords", (fixedDatumRecords.2.or (.list [])).or (.list [])), ("variableDatumRecords", (variableDatumRecords.2.or (.list [])).or (.list []))])] : List (String × Tree)))) := by
  have a : Fills (fun self => EventReportReliablePdu.initHeap self eventType.1 fixedDatumRecords.1 variableDatumRecords.1) [eventType, fixedDatumRecords, variableDatumRecords]
      (([("protocolVersion", .sc .absent), ("exerciseID", .sc .absent), ("pduType", .sc (.int 61)), ("protocolFamily", .sc (.int 10)), ("timestamp", .sc .absent), ("length", .sc .absent)] : List (String × Tree)) ++
      (([("pduStatus", .sc .absent), ("padding", .sc .absent)] : List (String × Tree)) ++
      (([("originatingEntityID", .sc .absent), ("receivingEntityID", .sc .absent)] : List (String × Tree)) ++
      (([("eventType", .sc .absent), ("pad1", .sc .absent), ("_datums", .sc .absent)] : List (String × Tree)) ++ [])))) []
      (SimulationManagementWithReliabilityFamilyPdu.members { pduType := 61, protocolFamily := 10 } ++ ([("eventType", eventType.2), ("pad1", .sc (.int 0)),
      ("_datums", .obj [("fixedDatumRecords", (fixedDatumRecords.2.or (.list [])).or (.list [])), ("variableDatumRecords", (variableDatumRecords.2.or (.list [])).or (.list []))])] : List (String × Tree))) := by
    unfold EventReportReliablePdu.initHeap
    refine .bind (.inits (SimulationManagementWithReliabilityFamilyPdu.inits 61 10 _)) ?_
    refine .bind (.arg (p := eventType) (by simp [attrOf_putAttr_isSome, attrOf, EventReportReliablePdu.members, SimulationManagementWithReliabilityFamilyPdu.members, Pdu.members, PduSuperclass.members])) ?_
    refine .bind (.inits (.set' (by simp [attrOf_putAttr_isSome, attrOf, EventReportReliablePdu.members, SimulationManagementWithReliabilityFamilyPdu.members, Pdu.members, PduSuperclass.members]))) ?_
    exact .cast (.lists (p := fixedDatumRecords) (q := variableDatumRecords) (k := fun a b => DatumSpecification.newHeap a b)
      (t := fun t u => .obj [("fixedDatumRecords", t.or (.list [])), ("variableDatumRecords", u.or (.list []))]) DatumSpecification.builds (by simp [attrOf_putAttr_isSome, attrOf, EventReportReliablePdu.members, SimulationManagementWithReliabilityFamilyPdu.members, Pdu.members, PduSuperclass.members]))
      (by simp [putAttr, EventReportReliablePdu.members, SimulationManagementWithReliabilityFamilyPdu.members, Pdu.members, PduSuperclass.members, Tree.ints, Tree.objs, Tree.optInt, Tree.optObj, Tree.intOr, Tree.optFloat, Tree.noneOr, IntercomParametersValue.tree])
  exact .new a

theorem Ctor.EventReportReliablePdu.lawful : Ctor.EventReportReliablePdu.Lawful := by
  intro kv kt e ok
  refine .select [("eventType", .int 0), ("fixedDatumRecords", .none), ("variableDatumRecords", .none)] (by simp) e ?_
  exact .cast (EventReportReliablePdu.builds ((attrOf "eventType" kv).getD (.sc (.int 0)), (attrOf "eventType" kt).getD (.sc (.int 0))) ((attrOf "fixedDatumRecords" kv).getD (.sc (.none)), (attrOf "fixedDatumRecords" kt).getD (.sc (.none))) ((attrOf "variableDatumRecords" kv).getD (.sc (.none)), (attrOf "variableDatumRecords" kt).getD (.sc (.none)))) (by
    simp [Ctor.built, Ctor.EventReportReliablePdu, HeapClass.EventReportReliablePdu, InPlace.value, InPlace.EventReportReliablePdu, Codec.EventReportReliablePdu, EventReportReliablePdu.init, Param.put, Tree.change, value_asIs, value_orFresh, value_copy, Tree.or_list, EventReportReliablePdu.members, SimulationManagementWithReliabilityFamilyPdu.members, Pdu.members, PduSuperclass.members, DatumSpecification.members, DatumSpecification.init, Tree.ints, Tree.objs, Tree.optInt, Tree.optObj, Tree.intOr, Tree.optFloat, Tree.noneOr, IntercomParametersValue.tree])

theorem MinefieldResponseNackPdu.builds (minefieldID requestingEntityID requestID missingPduSequenceNumbers : Val × Tree) :
    Builds (MinefieldResponseNackPdu.newHeap minefieldID.1 requestingEntityID.1 requestID.1 missingPduSequenceNumbers.1) [minefieldID, requestingEntityID, requestID, missingPduSequenceNumbers]
      (.obj (MinefieldFamilyPdu.members { pduType := 40, protocolFamily := 8 } ++ ([("minefieldID", minefieldID.2.or (.obj (EntityIdentifier.members EntityIdentifier.init))),
      ("requestingEntityID", requestingEntityID.2.or (.obj (EntityIdentifier.members EntityIdentifier.init))),
      ("requestID", requestID.2), ("missingPduSequenceNumbers", missingPduSequenceNumbers.2.or (.list []))] : List (String × Tree)))) := by
  have a : Fills (fun self => MinefieldResponseNackPdu.initHeap self minefieldID.1 requestingEntityID.1 requestID.1 missingPduSequenceNumbers.1) [minefieldID, requestingEntityID, requestID, missingPduSequenceNumbers]
      (([("protocolVersion", .sc .absent), ("exerciseID", .sc .absent), ("pduType", .sc (.int 40)), ("protocolFamily", .sc (.int 8)), ("timestamp", .sc .absent), ("length", .sc .absent)] : List (String × Tree)) ++
      (([("pduStatus", .sc .absent), ("padding", .sc .absent)] : List (String × Tree)) ++
      ([] ++
      (([("minefieldID", .sc .absent), ("requestingEntityID", .sc .absent), ("requestID", .sc .absent), ("missingPduSequenceNumbers", .sc .absent)] : List (String × Tree)) ++ [])))) []
      (MinefieldFamilyPdu.members { pduType := 40, protocolFamily := 8 } ++ ([("minefieldID", minefieldID.2.or (.obj (EntityIdentifier.members EntityIdentifier.init))),
      ("requestingEntityID", requestingEntityID.2.or (.obj (EntityIdentifier.members EntityIdentifier.init))),
      ("requestID", requestID.2), ("missingPduSequenceNumbers", missingPduSequenceNumbers.2.or (.list []))] : List (String × Tree))) := by
    unfold MinefieldResponseNackPdu.initHeap
    refine .bind (.inits (MinefieldFamilyPdu.inits 40 8 _)) ?_
    refine .bind (.or (p := minefieldID) EntityIdentifier.makesNew (by simp [attrOf_putAttr_isSome, attrOf, MinefieldResponseNackPdu.members, MinefieldFamilyPdu.members, Pdu.members, PduSuperclass.members])) ?_
    refine .bind (.or (p := requestingEntityID) EntityIdentifier.makesNew (by simp [attrOf_putAttr_isSome, attrOf, MinefieldResponseNackPdu.members, MinefieldFamilyPdu.members, Pdu.members, PduSuperclass.members])) ?_
    refine .bind (.arg (p := requestID) (by simp [attrOf_putAttr_isSome, attrOf, MinefieldResponseNackPdu.members, MinefieldFamilyPdu.members, Pdu.members, PduSuperclass.members])) ?_
    exact .cast (.or (p := missingPduSequenceNumbers) .empty (by simp [attrOf_putAttr_isSome, attrOf, MinefieldResponseNackPdu.members, MinefieldFamilyPdu.members, Pdu.members, PduSuperclass.members]))
      (by simp [putAttr, MinefieldResponseNackPdu.members, MinefieldFamilyPdu.members, Pdu.members, PduSuperclass.members, Tree.ints, Tree.objs, Tree.optInt, Tree.optObj, Tree.intOr, Tree.optFloat, Tree.noneOr, IntercomParametersValue.tree])
  exact .new a

theorem Ctor.MinefieldResponseNackPdu.lawful : Ctor.MinefieldResponseNackPdu.Lawful := by
  intro kv kt e ok
  refine .select [("minefieldID", .none), ("requestingEntityID", .none), ("requestID", .int 0), ("missingPduSequenceNumbers", .none)] (by simp) e ?_
  exact .cast (MinefieldResponseNackPdu.builds ((attrOf "minefieldID" kv).getD (.sc (.none)), (attrOf "minefieldID" kt).getD (.sc (.none))) ((attrOf "requestingEntityID" kv).getD (.sc (.none)), (attrOf "requestingEntityID" kt).getD (.sc (.none))) ((attrOf "requestID" kv).getD (.sc (.int 0)), (attrOf "requestID" kt).getD (.sc (.int 0))) ((attrOf "missingPduSequenceNumbers" kv).getD (.sc (.none)), (attrOf "missingPduSequenceNumbers" kt).getD (.sc (.none)))) (by
    simp [Ctor.built, Ctor.MinefieldResponseNackPdu, HeapClass.MinefieldResponseNackPdu, InPlace.value, InPlace.MinefieldResponseNackPdu, Codec.MinefieldResponseNackPdu, MinefieldResponseNackPdu.init, Param.put, Tree.change, value_asIs, value_orFresh, value_copy, Tree.or_list, MinefieldResponseNackPdu.members, MinefieldFamilyPdu.members, Pdu.members, PduSuperclass.members, Tree.ints, Tree.objs, Tree.optInt, Tree.optObj, Tree.intOr, Tree.optFloat, Tree.noneOr, IntercomParametersValue.tree])

theorem ActionResponseReliablePdu.builds (requestID responseStatus fixedDatumRecords variableDatumRecords : Val × Tree) :
    Builds (ActionResponseReliablePdu.newHeap requestID.1 responseStatus.1 fixedDatumRecords.1 variableDatumRecords.1) [requestID, responseStatus, fixedDatumRecords, variableDatumRecords]
      (.obj (SimulationManagementWithReliabilityFamilyPdu.members { pduType := 57, protocolFamily := 10 } ++ ([("requestID", requestID.2), ("responseStatus", responseStatus.2),
      ("_datums", .obj [("fixedDatumRecords", (fixedDatumRecords.2.or (.list [])).or (.list [])), ("variableDatumRecords", (variableDatumRecords.2.or (.list [])).or (.list []))])] : List (String × Tree)))) := by
  have a : Fills (fun self => ActionResponseReliablePdu.initHeap self requestID.1 responseStatus.1 fixedDatumRecords.1 variableDatumRecords.1) [requestID, responseStatus, fixedDatumRecords, variableDatumRecords]
      (([("protocolVersion", .sc .absent), ("exerciseID", .sc .absent), ("pduType", .sc (.int 57)), ("protocolFamily", .sc (.int 10)), ("timestamp", .sc .absent), ("length", .sc .absent)] : List (String × Tree)) ++
      (([("pduStatus", .sc .absent), ("padding", .sc .absent)] : List (String × Tree)) ++
      (([("originatingEntityID", .sc .absent), ("receivingEntityID", .sc .absent)] : List (String × Tree)) ++
      (([("requestID", .sc .absent), ("responseStatus", .sc .absent), ("_datums", .sc .absent)] : List (String × Tree)) ++ [])))) []
      (SimulationManagementWithReliabilityFamilyPdu.members { pduType := 57, protocolFamily := 10 } ++ ([("requestID", requestID.2), ("responseStatus", responseStatus.2),
      ("_datums", .obj [("fixedDatumRecords", (fixedDatumRecords.2.or (.list [])).or (.list [])), ("variableDatumRecords", (variableDatumRecords.2.or (.list [])).or (.list []))])] : List (String × Tree))) := by
    unfold ActionResponseReliablePdu.initHeap
    refine .bind (.inits (SimulationManagementWithReliabilityFamilyPdu.inits 57 10 _)) ?_
    refine .bind (.arg (p := requestID) (by simp [attrOf_putAttr_isSome, attrOf, ActionResponseReliablePdu.members, SimulationManagementWithReliabilityFamilyPdu.members, Pdu.members, PduSuperclass.members])) ?_
    refine .bind (.arg (p := responseStatus) (by simp [attrOf_putAttr_isSome, attrOf, ActionResponseReliablePdu.members, SimulationManagementWithReliabilityFamilyPdu.members, Pdu.members, PduSuperclass.members])) ?_
    exact .cast (.lists (p := fixedDatumRecords) (q := variableDatumRecords) (k := fun a b => DatumSpecification.newHeap a b)
      (t := fun t u => .obj [("fixedDatumRecords", t.or (.list [])), ("variableDatumRecords", u.or (.list []))]) DatumSpecification.builds (by simp [attrOf_putAttr_isSome, attrOf, ActionResponseReliablePdu.members, SimulationManagementWithReliabilityFamilyPdu.members, Pdu.members, PduSuperclass.members]))
      (by simp [putAttr, ActionResponseReliablePdu.members, SimulationManagementWithReliabilityFamilyPdu.members, Pdu.members, PduSuperclass.members, Tree.ints, Tree.objs, Tree.optInt, Tree.optObj, Tree.intOr, Tree.optFloat, Tree.noneOr, IntercomParametersValue.tree])
  exact .new a

theorem Ctor.ActionResponseReliablePdu.lawful : Ctor.ActionResponseReliablePdu.Lawful := by
  intro kv kt e ok
  refine .select [("requestID", .int 0), ("responseStatus", .int 0), ("fixedDatumRecords", .none), ("variableDatumRecords", .none)] (by simp) e ?_
  exact .cast (ActionResponseReliablePdu.builds ((attrOf "requestID" kv).getD (.sc (.int 0)), (attrOf "requestID" kt).getD (.sc (.int 0))) ((attrOf "responseStatus" kv).getD (.sc (.int 0)), (attrOf "responseStatus" kt).getD (.sc (.int 0))) ((attrOf "fixedDatumRecords" kv).getD (.sc (.none)), (attrOf "fixedDatumRecords" kt).getD (.sc (.none))) ((attrOf "variableDatumRecords" kv).getD (.sc (.none)), (attrOf "variableDatumRecords" kt).getD (.sc (.none)))) (by
    simp [Ctor.built, Ctor.ActionResponseReliablePdu, HeapClass.ActionResponseReliablePdu, InPlace.value, InPlace.ActionResponseReliablePdu, Codec.ActionResponseReliablePdu, ActionResponseReliablePdu.init, Param.put, Tree.change, value_asIs, value_orFresh, value_copy, Tree.or_list, ActionResponseReliablePdu.members, SimulationManagementWithReliabilityFamilyPdu.members, Pdu.members, PduSuperclass.members, DatumSpecification.members, DatumSpecification.init, Tree.ints, Tree.objs, Tree.optInt, Tree.optObj, Tree.intOr, Tree.optFloat, Tree.noneOr, IntercomParametersValue.tree])

theorem IsPartOfPdu.builds (originatingEntityID receivingEntityID relationship partLocation namedLocationID partEntityType : Val × Tree) :
    Builds (IsPartOfPdu.newHeap originatingEntityID.1 receivingEntityID.1 relationship.1 partLocation.1 namedLocationID.1 partEntityType.1) [originatingEntityID, receivingEntityID, relationship, partLocation, namedLocationID, partEntityType]
      (.obj (EntityManagementFamilyPdu.members { pduType := 36, protocolFamily := 7 } ++ ([("orginatingEntityID", originatingEntityID.2.or (.obj (EntityIdentifier.members EntityIdentifier.init))),
      ("receivingEntityID", receivingEntityID.2.or (.obj (EntityIdentifier.members EntityIdentifier.init))),
      ("relationship", relationship.2.or (.obj (Relationship.members Relationship.init))),
      ("partLocation", partLocation.2.or (.obj (Vector3Float.members Vector3Float.init))),
      ("namedLocationID", namedLocationID.2.or (.obj (NamedLocationIdentification.members NamedLocationIdentification.init))),
      ("partEntityType", partEntityType.2.or (.obj (EntityType.members EntityType.init)))] : List (String × Tree)))) := by
  have a : Fills (fun self => IsPartOfPdu.initHeap self originatingEntityID.1 receivingEntityID.1 relationship.1 partLocation.1 namedLocationID.1 partEntityType.1) [originatingEntityID, receivingEntityID, relationship, partLocation, namedLocationID, partEntityType]
      (([("protocolVersion", .sc .absent), ("exerciseID", .sc .absent), ("pduType", .sc (.int 36)), ("protocolFamily", .sc (.int 7)), ("timestamp", .sc .absent), ("length", .sc .absent)] : List (String × Tree)) ++
      (([("pduStatus", .sc .absent), ("padding", .sc .absent)] : List (String × Tree)) ++
      ([] ++
      (([("orginatingEntityID", .sc .absent), ("receivingEntityID", .sc .absent), ("relationship", .sc .absent), ("partLocation", .sc .absent), ("namedLocationID", .sc .absent), ("partEntityType", .sc .absent)] : List (String × Tree)) ++ [])))) []
      (EntityManagementFamilyPdu.members { pduType := 36, protocolFamily := 7 } ++ ([("orginatingEntityID", originatingEntityID.2.or (.obj (EntityIdentifier.members EntityIdentifier.init))),
      ("receivingEntityID", receivingEntityID.2.or (.obj (EntityIdentifier.members EntityIdentifier.init))),
      ("relationship", relationship.2.or (.obj (Relationship.members Relationship.init))),
      ("partLocation", partLocation.2.or (.obj (Vector3Float.members Vector3Float.init))),
      ("namedLocationID", namedLocationID.2.or (.obj (NamedLocationIdentification.members NamedLocationIdentification.init))),
      ("partEntityType", partEntityType.2.or (.obj (EntityType.members EntityType.init)))] : List (String × Tree))) := by
    unfold IsPartOfPdu.initHeap
    refine .bind (.inits (EntityManagementFamilyPdu.inits 36 7 _)) ?_
    refine .bind (.or (p := originatingEntityID) EntityIdentifier.makesNew (by simp [attrOf_putAttr_isSome, attrOf, IsPartOfPdu.members, EntityManagementFamilyPdu.members, Pdu.members, PduSuperclass.members])) ?_
    refine .bind (.or (p := receivingEntityID) EntityIdentifier.makesNew (by simp [attrOf_putAttr_isSome, attrOf, IsPartOfPdu.members, EntityManagementFamilyPdu.members, Pdu.members, PduSuperclass.members])) ?_
    refine .bind (.or (p := relationship) Relationship.makesNew (by simp [attrOf_putAttr_isSome, attrOf, IsPartOfPdu.members, EntityManagementFamilyPdu.members, Pdu.members, PduSuperclass.members])) ?_
    refine .bind (.or (p := partLocation) Vector3Float.makesNew (by simp [attrOf_putAttr_isSome, attrOf, IsPartOfPdu.members, EntityManagementFamilyPdu.members, Pdu.members, PduSuperclass.members])) ?_
    refine .bind (.or (p := namedLocationID) NamedLocationIdentification.makesNew (by simp [attrOf_putAttr_isSome, attrOf, IsPartOfPdu.members, EntityManagementFamilyPdu.members, Pdu.members, PduSuperclass.members])) ?_
    exact .cast (.or (p := partEntityType) EntityType.makesNew (by simp [attrOf_putAttr_isSome, attrOf, IsPartOfPdu.members, EntityManagementFamilyPdu.members, Pdu.members, PduSuperclass.members]))
      (by simp [putAttr, IsPartOfPdu.members, EntityManagementFamilyPdu.members, Pdu.members, PduSuperclass.members, Tree.ints, Tree.objs, Tree.optInt, Tree.optObj, Tree.intOr, Tree.optFloat, Tree.noneOr, IntercomParametersValue.tree])
  exact .new a

theorem Ctor.IsPartOfPdu.lawful : Ctor.IsPartOfPdu.Lawful := by
  intro kv kt e ok
  refine .select [("originatingEntityID", .none), ("receivingEntityID", .none), ("relationship", .none), ("partLocation", .none), ("namedLocationID", .none), ("partEntityType", .none)] (by simp) e ?_
  exact .cast (IsPartOfPdu.builds ((attrOf "originatingEntityID" kv).getD (.sc (.none)), (attrOf "originatingEntityID" kt).getD (.sc (.none))) ((attrOf "receivingEntityID" kv).getD (.sc (.none)), (attrOf "receivingEntityID" kt).getD (.sc (.none))) ((attrOf "relationship" kv).getD (.sc (.none)), (attrOf "relationship" kt).getD (.sc (.none))) ((attrOf "partLocation" kv).getD (.sc (.none)), (attrOf "partLocation" kt).getD (.sc (.none))) ((attrOf "namedLocationID" kv).getD (.sc (.none)), (attrOf "namedLocationID" kt).getD (.sc (.none))) ((attrOf "partEntityType" kv).getD (.sc (.none)), (attrOf "partEntityType" kt).getD (.sc (.none)))) (by
    simp [Ctor.built, Ctor.IsPartOfPdu, HeapClass.IsPartOfPdu, InPlace.value, InPlace.IsPartOfPdu, Codec.IsPartOfPdu, IsPartOfPdu.init, Param.put, Tree.change, value_asIs, value_orFresh, value_copy, Tree.or_list, IsPartOfPdu.members, EntityManagementFamilyPdu.members, Pdu.members, PduSuperclass.members, Tree.ints, Tree.objs, Tree.optInt, Tree.optObj, Tree.intOr, Tree.optFloat, Tree.noneOr, IntercomParametersValue.tree])

theorem AggregateStatePdu.builds (aggregateID forceID aggregateState aggregateType formation aggregateMarking dimensions orientation centerOfMass velocity aggregateIDs entityIDs silentAggregateSystems silentEntitySystems variableDatumRecords : Val × Tree) :
    Builds (AggregateStatePdu.newHeap aggregateID.1 forceID.1 aggregateState.1 aggregateType.1 formation.1 aggregateMarking.1 dimensions.1 orientation.1 centerOfMass.1 velocity.1 aggregateIDs.1 entityIDs.1 silentAggregateSystems.1 silentEntitySystems.1 variableDatumRecords.1) [aggregateID, forceID, aggregateState, aggregateType, formation, aggregateMarking, dimensions, orientation, centerOfMass, velocity, aggregateIDs, entityIDs, silentAggregateSystems, silentEntitySystems, variableDatumRecords]
      (.obj (EntityManagementFamilyPdu.members { pduType := 33, protocolFamily := 7 } ++ ([("aggregateID", aggregateID.2.or (.obj (AggregateIdentifier.members AggregateIdentifier.init))),
      ("forceID", forceID.2), ("aggregateState", aggregateState.2),
      ("aggregateType", aggregateType.2.or (.obj (AggregateType.members AggregateType.init))),
      ("formation", formation.2),
      ("aggregateMarking", aggregateMarking.2.or (.obj (AggregateMarking.members AggregateMarking.init))),
      ("dimensions", dimensions.2.or (.obj (Vector3Float.members Vector3Float.init))),
      ("orientation", orientation.2.or (.obj (EulerAngles.members EulerAngles.init))),
      ("centerOfMass", centerOfMass.2.or (.obj (Vector3Float.members Vector3Float.init))),
      ("velocity", velocity.2.or (.obj (WorldCoordinates.members WorldCoordinates.init))),
      ("aggregateIDs", aggregateIDs.2.or (.list [])), ("entityIDs", entityIDs.2.or (.list [])),
      ("silentAggregateSystems", silentAggregateSystems.2.or (.list [])),
      ("silentEntitySystems", silentEntitySystems.2.or (.list [])),
      ("variableDatumRecords", variableDatumRecords.2.or (.list []))] : List (String × Tree)))) := by
  have a : Fills (fun self => AggregateStatePdu.initHeap self aggregateID.1 forceID.1 aggregateState.1 aggregateType.1 formation.1 aggregateMarking.1 dimensions.1 orientation.1 centerOfMass.1 velocity.1 aggregateIDs.1 entityIDs.1 silentAggregateSystems.1 silentEntitySystems.1 variableDatumRecords.1) [aggregateID, forceID, aggregateState, aggregateType, formation, aggregateMarking, dimensions, orientation, centerOfMass, velocity, aggregateIDs, entityIDs, silentAggregateSystems, silentEntitySystems, variableDatumRecords]
      (([("protocolVersion", .sc .absent), ("exerciseID", .sc .absent), ("pduType", .sc (.int 33)), ("protocolFamily", .sc (.int 7)), ("timestamp", .sc .absent), ("length", .sc .absent)] : List (String × Tree)) ++
      (([("pduStatus", .sc .absent), ("padding", .sc .absent)] : List (String × Tree)) ++
      ([] ++
      (([("aggregateID", .sc .absent), ("forceID", .sc .absent), ("aggregateState", .sc .absent), ("aggregateType", .sc .absent), ("formation", .sc .absent), ("aggregateMarking", .sc .absent), ("dimensions", .sc .absent), ("orientation", .sc .absent), ("centerOfMass", .sc .absent), ("velocity", .sc .absent), ("aggregateIDs", .sc .absent), ("entityIDs", .sc .absent), ("silentAggregateSystems", .sc .absent), ("silentEntitySystems", .sc .absent), ("variableDatumRecords", .sc .absent)] : List (String × Tree)) ++ [])))) []
      (EntityManagementFamilyPdu.members { pduType := 33, protocolFamily := 7 } ++ ([("aggregateID", aggregateID.2.or (.obj (AggregateIdentifier.members AggregateIdentifier.init))),
      ("forceID", forceID.2), ("aggregateState", aggregateState.2),
      ("aggregateType", aggregateType.2.or (.obj (AggregateType.members AggregateType.init))),
      ("formation", formation.2),
      ("aggregateMarking", aggregateMarking.2.or (.obj (AggregateMarking.members AggregateMarking.init))),
      ("dimensions", dimensions.2.or (.obj (Vector3Float.members Vector3Float.init))),
      ("orientation", orientation.2.or (.obj (EulerAngles.members EulerAngles.init))),
      ("centerOfMass", centerOfMass.2.or (.obj (Vector3Float.members Vector3Float.init))),
      ("velocity", velocity.2.or (.obj (WorldCoordinates.members WorldCoordinates.init))),
      ("aggregateIDs", aggregateIDs.2.or (.list [])), ("entityIDs", entityIDs.2.or (.list [])),
      ("silentAggregateSystems", silentAggregateSystems.2.or (.list [])),
      ("silentEntitySystems", silentEntitySystems.2.or (.list [])),
      ("variableDatumRecords", variableDatumRecords.2.or (.list []))] : List (String × Tree))) := by
    unfold AggregateStatePdu.initHeap
    refine .bind (.inits (EntityManagementFamilyPdu.inits 33 7 _)) ?_
    refine .bind (.or (p := aggregateID) AggregateIdentifier.makesNew (by simp [attrOf_putAttr_isSome, attrOf, AggregateStatePdu.members, EntityManagementFamilyPdu.members, Pdu.members, PduSuperclass.members])) ?_
    refine .bind (.arg (p := forceID) (by simp [attrOf_putAttr_isSome, attrOf, AggregateStatePdu.members, EntityManagementFamilyPdu.members, Pdu.members, PduSuperclass.members])) ?_
    refine .bind (.arg (p := aggregateState) (by simp [attrOf_putAttr_isSome, attrOf, AggregateStatePdu.members, EntityManagementFamilyPdu.members, Pdu.members, PduSuperclass.members])) ?_
    refine .bind (.or (p := aggregateType) AggregateType.makesNew (by simp [attrOf_putAttr_isSome, attrOf, AggregateStatePdu.members, EntityManagementFamilyPdu.members, Pdu.members, PduSuperclass.members])) ?_
    refine .bind (.arg (p := formation) (by simp [attrOf_putAttr_isSome, attrOf, AggregateStatePdu.members, EntityManagementFamilyPdu.members, Pdu.members, PduSuperclass.members])) ?_
    refine .bind (.or (p := aggregateMarking) AggregateMarking.makesNew (by simp [attrOf_putAttr_isSome, attrOf, AggregateStatePdu.members, EntityManagementFamilyPdu.members, Pdu.members, PduSuperclass.members])) ?_
    refine .bind (.or (p := dimensions) Vector3Float.makesNew (by simp [attrOf_putAttr_isSome, attrOf, AggregateStatePdu.members, EntityManagementFamilyPdu.members, Pdu.members, PduSuperclass.members])) ?_
    refine .bind (.or (p := orientation) EulerAngles.makesNew (by simp [attrOf_putAttr_isSome, attrOf, AggregateStatePdu.members, EntityManagementFamilyPdu.members, Pdu.members, PduSuperclass.members])) ?_
    refine .bind (.or (p := centerOfMass) Vector3Float.makesNew (by simp [attrOf_putAttr_isSome, attrOf, AggregateStatePdu.members, EntityManagementFamilyPdu.members, Pdu.members, PduSuperclass.members])) ?_
    refine .bind (.or (p := velocity) WorldCoordinates.makesNew (by simp [attrOf_putAttr_isSome, attrOf, AggregateStatePdu.members, EntityManagementFamilyPdu.members, Pdu.members, PduSuperclass.members])) ?_
    refine .bind (.or (p := aggregateIDs) .empty (by simp [attrOf_putAttr_isSome, attrOf, AggregateStatePdu.members, EntityManagementFamilyPdu.members, Pdu.members, PduSuperclass.members])) ?_
    refine .bind (.or (p := entityIDs) .empty (by simp [attrOf_putAttr_isSome, attrOf, AggregateStatePdu.members, EntityManagementFamilyPdu.members, Pdu.members, PduSuperclass.members])) ?_
    refine .bind (.or (p := silentAggregateSystems) .empty (by simp [attrOf_putAttr_isSome, attrOf, AggregateStatePdu.members, EntityManagementFamilyPdu.members, Pdu.members, PduSuperclass.members])) ?_
    refine .bind (.or (p := silentEntitySystems) .empty (by simp [attrOf_putAttr_isSome, attrOf, AggregateStatePdu.members, EntityManagementFamilyPdu.members, Pdu.members, PduSuperclass.members])) ?_
    exact .cast (.or (p := variableDatumRecords) .empty (by simp [attrOf_putAttr_isSome, attrOf, AggregateStatePdu.members, EntityManagementFamilyPdu.members, Pdu.members, PduSuperclass.members]))
      (by simp [putAttr, AggregateStatePdu.members, EntityManagementFamilyPdu.members, Pdu.members, PduSuperclass.members, Tree.ints, Tree.objs, Tree.optInt, Tree.optObj, Tree.intOr, Tree.optFloat, Tree.noneOr, IntercomParametersValue.tree])
  exact .new a

theorem Ctor.AggregateStatePdu.lawful : Ctor.AggregateStatePdu.Lawful := by
  intro kv kt e ok
  refine .select [("aggregateID", .none), ("forceID", .int 0), ("aggregateState", .int 0), ("aggregateType", .none), ("formation", .int 0), ("aggregateMarking", .none), ("dimensions", .none), ("orientation", .none), ("centerOfMass", .none), ("velocity", .none), ("aggregateIDs", .none), ("entityIDs", .none), ("silentAggregateSystems", .none), ("silentEntitySystems", .none), ("variableDatumRecords", .none)] (by simp) e ?_
  exact .cast (AggregateStatePdu.builds ((attrOf "aggregateID" kv).getD (.sc (.none)), (attrOf "aggregateID" kt).getD (.sc (.none))) ((attrOf "forceID" kv).getD (.sc (.int 0)), (attrOf "forceID" kt).getD (.sc (.int 0))) ((attrOf "aggregateState" kv).getD (.sc (.int 0)), (attrOf "aggregateState" kt).getD (.sc (.int 0))) ((attrOf "aggregateType" kv).getD (.sc (.none)), (attrOf "aggregateType" kt).getD (.sc (.none))) ((attrOf "formation" kv).getD (.sc (.int 0)), (attrOf "formation" kt).getD (.sc (.int 0))) ((attrOf "aggregateMarking" kv).getD (.sc (.none)), (attrOf "aggregateMarking" kt).getD (.sc (.none))) ((attrOf "dimensions" kv).getD (.sc (.none)), (attrOf "dimensions" kt).getD (.sc (.none))) ((attrOf "orientation" kv).getD (.sc (.none)), (attrOf "orientation" kt).getD (.sc (.none))) ((attrOf "centerOfMass" kv).getD (.sc (.none)), (attrOf "centerOfMass" kt).getD (.sc (.none))) ((attrOf "velocity" kv).getD (.sc (.none)), (attrOf "velocity" kt).getD (.sc (.none))) ((attrOf "aggregateIDs" kv).getD (.sc (.none)), (attrOf "aggregateIDs" kt).getD (.sc (.none))) ((attrOf "entityIDs" kv).getD (.sc (.none)), (attrOf "entityIDs" kt).getD (.sc (.none))) ((attrOf "silentAggregateSystems" kv).getD (.sc (.none)), (attrOf "silentAggregateSystems" kt).getD (.sc (.none))) ((attrOf "silentEntitySystems" kv).getD (.sc (.none)), (attrOf "silentEntitySystems" kt).getD (.sc (.none))) ((attrOf "variableDatumRecords" kv).getD (.sc (.none)), (attrOf "variableDatumRecords" kt).getD (.sc (.none)))) (by
    simp [Ctor.built, Ctor.AggregateStatePdu, HeapClass.AggregateStatePdu, InPlace.value, InPlace.AggregateStatePdu, Codec.AggregateStatePdu, AggregateStatePdu.init, Param.put, Tree.change, value_asIs, value_orFresh, value_copy, Tree.or_list, AggregateStatePdu.members, EntityManagementFamilyPdu.members, Pdu.members, PduSuperclass.members, Tree.ints, Tree.objs, Tree.optInt, Tree.optObj, Tree.intOr, Tree.optFloat, Tree.noneOr, IntercomParametersValue.tree])

theorem BeamAntennaPattern.builds (beamDirection azimuthBeamwidth elevationBeamwidth referenceSystem ez ex phase : Val × Tree) :
    Builds (BeamAntennaPattern.newHeap beamDirection.1 azimuthBeamwidth.1 elevationBeamwidth.1 referenceSystem.1 ez.1 ex.1 phase.1) [beamDirection, azimuthBeamwidth, elevationBeamwidth, referenceSystem, ez, ex, phase]
      (.obj [("__class__", .sc (.cls "BeamAntennaPattern")),
      ("beamDirection", beamDirection.2.or (.obj (EulerAngles.members EulerAngles.init))),
      ("azimuthBeamwidth", azimuthBeamwidth.2), ("elevationBeamwidth", elevationBeamwidth.2),
      ("referenceSystem", referenceSystem.2), ("padding1", .sc (.int 0)), ("padding2", .sc (.int 0)),
      ("ez", ez.2), ("ex", ex.2), ("phase", phase.2), ("padding3", .sc (.int 0))]) := by
  have a : Fills (fun self => BeamAntennaPattern.initHeap self beamDirection.1 azimuthBeamwidth.1 elevationBeamwidth.1 referenceSystem.1 ez.1 ex.1 phase.1) [beamDirection, azimuthBeamwidth, elevationBeamwidth, referenceSystem, ez, ex, phase]
      (([("__class__", .sc (.cls "BeamAntennaPattern")), ("beamDirection", .sc .absent), ("azimuthBeamwidth", .sc .absent), ("elevationBeamwidth", .sc .absent), ("referenceSystem", .sc .absent), ("padding1", .sc .absent), ("padding2", .sc .absent), ("ez", .sc .absent), ("ex", .sc .absent), ("phase", .sc .absent), ("padding3", .sc .absent)] : List (String × Tree)) ++ []) []
      [("__class__", .sc (.cls "BeamAntennaPattern")),
      ("beamDirection", beamDirection.2.or (.obj (EulerAngles.members EulerAngles.init))),
      ("azimuthBeamwidth", azimuthBeamwidth.2), ("elevationBeamwidth", elevationBeamwidth.2),
      ("referenceSystem", referenceSystem.2), ("padding1", .sc (.int 0)), ("padding2", .sc (.int 0)),
      ("ez", ez.2), ("ex", ex.2), ("phase", phase.2), ("padding3", .sc (.int 0))] := by
    unfold BeamAntennaPattern.initHeap
    refine .bind (.or (p := beamDirection) EulerAngles.makesNew (by simp [attrOf_putAttr_isSome, attrOf, BeamAntennaPattern.members])) ?_
    refine .bind (.arg (p := azimuthBeamwidth) (by simp [attrOf_putAttr_isSome, attrOf, BeamAntennaPattern.members])) ?_
    refine .bind (.arg (p := elevationBeamwidth) (by simp [attrOf_putAttr_isSome, attrOf, BeamAntennaPattern.members])) ?_
    refine .bind (.arg (p := referenceSystem) (by simp [attrOf_putAttr_isSome, attrOf, BeamAntennaPattern.members])) ?_
    refine .bind (.inits (.set' (by simp [attrOf_putAttr_isSome, attrOf, BeamAntennaPattern.members]))) ?_
    refine .bind (.inits (.set' (by simp [attrOf_putAttr_isSome, attrOf, BeamAntennaPattern.members]))) ?_
    refine .bind (.arg (p := ez) (by simp [attrOf_putAttr_isSome, attrOf, BeamAntennaPattern.members])) ?_
    refine .bind (.arg (p := ex) (by simp [attrOf_putAttr_isSome, attrOf, BeamAntennaPattern.members])) ?_
    refine .bind (.arg (p := phase) (by simp [attrOf_putAttr_isSome, attrOf, BeamAntennaPattern.members])) ?_
    exact .cast (.inits (.set' (by simp [attrOf_putAttr_isSome, attrOf, BeamAntennaPattern.members])))
      (by simp [putAttr, BeamAntennaPattern.members, Tree.ints, Tree.objs, Tree.optInt, Tree.optObj, Tree.intOr, Tree.optFloat, Tree.noneOr, IntercomParametersValue.tree])
  exact .new a

theorem Ctor.BeamAntennaPattern.lawful : Ctor.BeamAntennaPattern.Lawful := by
  intro kv kt e ok
  refine .select [("beamDirection", .none), ("azimuthBeamwidth", .float 0x0000000000000000), ("elevationBeamwidth", .float 0x0000000000000000), ("referenceSystem", .int 0), ("ez", .float 0x0000000000000000), ("ex", .float 0x0000000000000000), ("phase", .float 0x0000000000000000)] (by simp) e ?_
  exact .cast (BeamAntennaPattern.builds ((attrOf "beamDirection" kv).getD (.sc (.none)), (attrOf "beamDirection" kt).getD (.sc (.none))) ((attrOf "azimuthBeamwidth" kv).getD (.sc (.float 0x0000000000000000)), (attrOf "azimuthBeamwidth" kt).getD (.sc (.float 0x0000000000000000))) ((attrOf "elevationBeamwidth" kv).getD (.sc (.float 0x0000000000000000)), (attrOf "elevationBeamwidth" kt).getD (.sc (.float 0x0000000000000000))) ((attrOf "referenceSystem" kv).getD (.sc (.int 0)), (attrOf "referenceSystem" kt).getD (.sc (.int 0))) ((attrOf "ez" kv).getD (.sc (.float 0x0000000000000000)), (attrOf "ez" kt).getD (.sc (.float 0x0000000000000000))) ((attrOf "ex" kv).getD (.sc (.float 0x0000000000000000)), (attrOf "ex" kt).getD (.sc (.float 0x0000000000000000))) ((attrOf "phase" kv).getD (.sc (.float 0x0000000000000000)), (attrOf "phase" kt).getD (.sc (.float 0x0000000000000000)))) (by
    simp [Ctor.built, Ctor.BeamAntennaPattern, HeapClass.BeamAntennaPattern, InPlace.value, InPlace.BeamAntennaPattern, Codec.BeamAntennaPattern, BeamAntennaPattern.init, Param.put, Tree.change, value_asIs, value_orFresh, value_copy, Tree.or_list, BeamAntennaPattern.members, Tree.ints, Tree.objs, Tree.optInt, Tree.optObj, Tree.intOr, Tree.optFloat, Tree.noneOr, IntercomParametersValue.tree])

theorem SpreadSpectrum.builds (frequencyHopping pseudoNoise timeHopping padding : Val × Tree) :
    Builds (SpreadSpectrum.newHeap frequencyHopping.1 pseudoNoise.1 timeHopping.1 padding.1) [frequencyHopping, pseudoNoise, timeHopping, padding]
      (.obj [("frequencyHopping", frequencyHopping.2), ("pseudoNoise", pseudoNoise.2),
      ("timeHopping", timeHopping.2), ("padding", padding.2)]) := by
  have a : Fills (fun self => SpreadSpectrum.initHeap self frequencyHopping.1 pseudoNoise.1 timeHopping.1 padding.1) [frequencyHopping, pseudoNoise, timeHopping, padding]
      (([("frequencyHopping", .sc .absent), ("pseudoNoise", .sc .absent), ("timeHopping", .sc .absent), ("padding", .sc .absent)] : List (String × Tree)) ++ []) []
      [("frequencyHopping", frequencyHopping.2), ("pseudoNoise", pseudoNoise.2),
      ("timeHopping", timeHopping.2), ("padding", padding.2)] := by
    unfold SpreadSpectrum.initHeap
    refine .bind (.arg (p := frequencyHopping) (by simp [attrOf_putAttr_isSome, attrOf, SpreadSpectrum.members])) ?_
    refine .bind (.arg (p := pseudoNoise) (by simp [attrOf_putAttr_isSome, attrOf, SpreadSpectrum.members])) ?_
    refine .bind (.arg (p := timeHopping) (by simp [attrOf_putAttr_isSome, attrOf, SpreadSpectrum.members])) ?_
    exact .cast (.arg (p := padding) (by simp [attrOf_putAttr_isSome, attrOf, SpreadSpectrum.members]))
      (by simp [putAttr, SpreadSpectrum.members, Tree.ints, Tree.objs, Tree.optInt, Tree.optObj, Tree.intOr, Tree.optFloat, Tree.noneOr, IntercomParametersValue.tree])
  exact .new a

theorem Ctor.SpreadSpectrum.lawful : Ctor.SpreadSpectrum.Lawful := by
  intro kv kt e ok
  refine .select [("frequencyHopping", .bool false), ("pseudoNoise", .bool false), ("timeHopping", .bool false), ("padding", .int 0)] (by simp) e ?_
  exact .cast (SpreadSpectrum.builds ((attrOf "frequencyHopping" kv).getD (.sc (.bool false)), (attrOf "frequencyHopping" kt).getD (.sc (.bool false))) ((attrOf "pseudoNoise" kv).getD (.sc (.bool false)), (attrOf "pseudoNoise" kt).getD (.sc (.bool false))) ((attrOf "timeHopping" kv).getD (.sc (.bool false)), (attrOf "timeHopping" kt).getD (.sc (.bool false))) ((attrOf "padding" kv).getD (.sc (.int 0)), (attrOf "padding" kt).getD (.sc (.int 0)))) (by
    simp [Ctor.built, Ctor.SpreadSpectrum, HeapClass.SpreadSpectrum, InPlace.value, InPlace.SpreadSpectrum, Codec.SpreadSpectrum, SpreadSpectrum.init, Param.put, Tree.change, value_asIs, value_orFresh, value_copy, Tree.or_list, SpreadSpectrum.members, Tree.ints, Tree.objs, Tree.optInt, Tree.optObj, Tree.intOr, Tree.optFloat, Tree.noneOr, IntercomParametersValue.tree])

theorem ModulationType.builds (spreadSpectrum majorModulation detail radioSystem : Val × Tree) :
    Builds (ModulationType.newHeap spreadSpectrum.1 majorModulation.1 detail.1 radioSystem.1) [spreadSpectrum, majorModulation, detail, radioSystem]
      (.obj [("spreadSpectrum", spreadSpectrum.2.or (.obj (SpreadSpectrum.members SpreadSpectrum.init))),
      ("majorModulation", majorModulation.2), ("detail", detail.2), ("radioSystem", radioSystem.2)]) := by
  have a : Fills (fun self => ModulationType.initHeap self spreadSpectrum.1 majorModulation.1 detail.1 radioSystem.1) [spreadSpectrum, majorModulation, detail, radioSystem]
      (([("spreadSpectrum", .sc .absent), ("majorModulation", .sc .absent), ("detail", .sc .absent), ("radioSystem", .sc .absent)] : List (String × Tree)) ++ []) []
      [("spreadSpectrum", spreadSpectrum.2.or (.obj (SpreadSpectrum.members SpreadSpectrum.init))),
      ("majorModulation", majorModulation.2), ("detail", detail.2), ("radioSystem", radioSystem.2)] := by
    unfold ModulationType.initHeap
    refine .bind (.or (p := spreadSpectrum) SpreadSpectrum.makesNew (by simp [attrOf_putAttr_isSome, attrOf, ModulationType.members])) ?_
    refine .bind (.arg (p := majorModulation) (by simp [attrOf_putAttr_isSome, attrOf, ModulationType.members])) ?_
    refine .bind (.arg (p := detail) (by simp [attrOf_putAttr_isSome, attrOf, ModulationType.members])) ?_
    exact .cast (.arg (p := radioSystem) (by simp [attrOf_putAttr_isSome, attrOf, ModulationType.members]))
      (by simp [putAttr, ModulationType.members, Tree.ints, Tree.objs, Tree.optInt, Tree.optObj, Tree.intOr, Tree.optFloat, Tree.noneOr, IntercomParametersValue.tree])
  exact .new a

theorem Ctor.ModulationType.lawful : Ctor.ModulationType.Lawful := by
  intro kv kt e ok
  refine .select [("spreadSpectrum", .none), ("majorModulation", .int 0), ("detail", .int 0), ("radioSystem", .int 0)] (by simp) e ?_
  exact .cast (ModulationType.builds ((attrOf "spreadSpectrum" kv).getD (.sc (.none)), (attrOf "spreadSpectrum" kt).getD (.sc (.none))) ((attrOf "majorModulation" kv).getD (.sc (.int 0)), (attrOf "majorModulation" kt).getD (.sc (.int 0))) ((attrOf "detail" kv).getD (.sc (.int 0)), (attrOf "detail" kt).getD (.sc (.int 0))) ((attrOf "radioSystem" kv).getD (.sc (.int 0)), (attrOf "radioSystem" kt).getD (.sc (.int 0)))) (by
    simp [Ctor.built, Ctor.ModulationType, HeapClass.ModulationType, InPlace.value, InPlace.ModulationType, Codec.ModulationType, ModulationType.init, Param.put, Tree.change, value_asIs, value_orFresh, value_copy, Tree.or_list, ModulationType.members, Tree.ints, Tree.objs, Tree.optInt, Tree.optObj, Tree.intOr, Tree.optFloat, Tree.noneOr, IntercomParametersValue.tree])

theorem NetId.builds (netNumber frequencyTable mode padding : Val × Tree) :
    Builds (NetId.newHeap netNumber.1 frequencyTable.1 mode.1 padding.1) [netNumber, frequencyTable, mode, padding]
      (.obj [("netNumber", netNumber.2), ("frequencyTable", frequencyTable.2), ("mode", mode.2),
      ("padding", padding.2)]) := by
  have a : Fills (fun self => NetId.initHeap self netNumber.1 frequencyTable.1 mode.1 padding.1) [netNumber, frequencyTable, mode, padding]
      (([("netNumber", .sc .absent), ("frequencyTable", .sc .absent), ("mode", .sc .absent), ("padding", .sc .absent)] : List (String × Tree)) ++ []) []
      [("netNumber", netNumber.2), ("frequencyTable", frequencyTable.2), ("mode", mode.2),
      ("padding", padding.2)] := by
    unfold NetId.initHeap
    refine .bind (.arg (p := netNumber) (by simp [attrOf_putAttr_isSome, attrOf, NetId.members])) ?_
    refine .bind (.arg (p := frequencyTable) (by simp [attrOf_putAttr_isSome, attrOf, NetId.members])) ?_
    refine .bind (.arg (p := mode) (by simp [attrOf_putAttr_isSome, attrOf, NetId.members])) ?_
    exact .cast (.arg (p := padding) (by simp [attrOf_putAttr_isSome, attrOf, NetId.members]))
      (by simp [putAttr, NetId.members, Tree.ints, Tree.objs, Tree.optInt, Tree.optObj, Tree.intOr, Tree.optFloat, Tree.noneOr, IntercomParametersValue.tree])
  exact .new a

theorem Ctor.NetId.lawful : Ctor.NetId.Lawful := by
  intro kv kt e ok
  refine .select [("netNumber", .int 0), ("frequencyTable", .int 0), ("mode", .int 0), ("padding", .int 0)] (by simp) e ?_
  exact .cast (NetId.builds ((attrOf "netNumber" kv).getD (.sc (.int 0)), (attrOf "netNumber" kt).getD (.sc (.int 0))) ((attrOf "frequencyTable" kv).getD (.sc (.int 0)), (attrOf "frequencyTable" kt).getD (.sc (.int 0))) ((attrOf "mode" kv).getD (.sc (.int 0)), (attrOf "mode" kt).getD (.sc (.int 0))) ((attrOf "padding" kv).getD (.sc (.int 0)), (attrOf "padding" kt).getD (.sc (.int 0)))) (by
    simp [Ctor.built, Ctor.NetId, HeapClass.NetId, InPlace.value, InPlace.NetId, Codec.NetId, NetId.init, Param.put, Tree.change, value_asIs, value_orFresh, value_copy, Tree.or_list, NetId.members, Tree.ints, Tree.objs, Tree.optInt, Tree.optObj, Tree.intOr, Tree.optFloat, Tree.noneOr, IntercomParametersValue.tree])

theorem BasicHaveQuickMP.builds (net_id mwod_index reserved16 reserved8_1 reserved8_2 time_of_day padding : Val × Tree) :
    Builds (BasicHaveQuickMP.newHeap net_id.1 mwod_index.1 reserved16.1 reserved8_1.1 reserved8_2.1 time_of_day.1 padding.1) [net_id, mwod_index, reserved16, reserved8_1, reserved8_2, time_of_day, padding]
      (.obj [("__class__", .sc (.cls "BasicHaveQuickMP")), ("net_id", net_id.2.or (.obj (NetId.members NetId.init))),
      ("mwod_index", mwod_index.2), ("reserved16", reserved16.2), ("reserved8_1", reserved8_1.2),
      ("reserved8_2", reserved8_2.2), ("time_of_day", time_of_day.2), ("padding", padding.2)]) := by
  have a : Fills (fun self => BasicHaveQuickMP.initHeap self net_id.1 mwod_index.1 reserved16.1 reserved8_1.1 reserved8_2.1 time_of_day.1 padding.1) [net_id, mwod_index, reserved16, reserved8_1, reserved8_2, time_of_day, padding]
      (([("__class__", .sc (.cls "BasicHaveQuickMP")), ("net_id", .sc .absent), ("mwod_index", .sc .absent), ("reserved16", .sc .absent), ("reserved8_1", .sc .absent), ("reserved8_2", .sc .absent), ("time_of_day", .sc .absent), ("padding", .sc .absent)] : List (String × Tree)) ++ []) []
      [("__class__", .sc (.cls "BasicHaveQuickMP")), ("net_id", net_id.2.or (.obj (NetId.members NetId.init))),
      ("mwod_index", mwod_index.2), ("reserved16", reserved16.2), ("reserved8_1", reserved8_1.2),
      ("reserved8_2", reserved8_2.2), ("time_of_day", time_of_day.2), ("padding", padding.2)] := by
    unfold BasicHaveQuickMP.initHeap
    refine .bind (.or (p := net_id) NetId.makesNew (by simp [attrOf_putAttr_isSome, attrOf, BasicHaveQuickMP.members])) ?_
    refine .bind (.arg (p := mwod_index) (by simp [attrOf_putAttr_isSome, attrOf, BasicHaveQuickMP.members])) ?_
    refine .bind (.arg (p := reserved16) (by simp [attrOf_putAttr_isSome, attrOf, BasicHaveQuickMP.members])) ?_
    refine .bind (.arg (p := reserved8_1) (by simp [attrOf_putAttr_isSome, attrOf, BasicHaveQuickMP.members])) ?_
    refine .bind (.arg (p := reserved8_2) (by simp [attrOf_putAttr_isSome, attrOf, BasicHaveQuickMP.members])) ?_
    refine .bind (.arg (p := time_of_day) (by simp [attrOf_putAttr_isSome, attrOf, BasicHaveQuickMP.members])) ?_
    exact .cast (.arg (p := padding) (by simp [attrOf_putAttr_isSome, attrOf, BasicHaveQuickMP.members]))
      (by simp [putAttr, BasicHaveQuickMP.members, Tree.ints, Tree.objs, Tree.optInt, Tree.optObj, Tree.intOr, Tree.optFloat, Tree.noneOr, IntercomParametersValue.tree])
  exact .new a

theorem Ctor.BasicHaveQuickMP.lawful : Ctor.BasicHaveQuickMP.Lawful := by
  intro kv kt e ok
  refine .select [("net_id", .none), ("mwod_index", .int 1), ("reserved16", .int 0), ("reserved8_1", .int 0), ("reserved8_2", .int 0), ("time_of_day", .int 0), ("padding", .int 0)] (by simp) e ?_
  exact .cast (BasicHaveQuickMP.builds ((attrOf "net_id" kv).getD (.sc (.none)), (attrOf "net_id" kt).getD (.sc (.none))) ((attrOf "mwod_index" kv).getD (.sc (.int 1)), (attrOf "mwod_index" kt).getD (.sc (.int 1))) ((attrOf "reserved16" kv).getD (.sc (.int 0)), (attrOf "reserved16" kt).getD (.sc (.int 0))) ((attrOf "reserved8_1" kv).getD (.sc (.int 0)), (attrOf "reserved8_1" kt).getD (.sc (.int 0))) ((attrOf "reserved8_2" kv).getD (.sc (.int 0)), (attrOf "reserved8_2" kt).getD (.sc (.int 0))) ((attrOf "time_of_day" kv).getD (.sc (.int 0)), (attrOf "time_of_day" kt).getD (.sc (.int 0))) ((attrOf "padding" kv).getD (.sc (.int 0)), (attrOf "padding" kt).getD (.sc (.int 0)))) (by
    simp [Ctor.built, Ctor.BasicHaveQuickMP, HeapClass.BasicHaveQuickMP, InPlace.value, InPlace.BasicHaveQuickMP, Codec.BasicHaveQuickMP, BasicHaveQuickMP.init, Param.put, Tree.change, value_asIs, value_orFresh, value_copy, Tree.or_list, BasicHaveQuickMP.members, Tree.ints, Tree.objs, Tree.optInt, Tree.optObj, Tree.intOr, Tree.optFloat, Tree.noneOr, IntercomParametersValue.tree])

theorem CCTTSincgarsMP.builds (fh_net_id hop_set_id lockout_set_id start_of_message clear_channel fh_sync_time_offset transmission_security_key : Val × Tree) :
    Builds (CCTTSincgarsMP.newHeap fh_net_id.1 hop_set_id.1 lockout_set_id.1 start_of_message.1 clear_channel.1 fh_sync_time_offset.1 transmission_security_key.1) [fh_net_id, hop_set_id, lockout_set_id, start_of_message, clear_channel, fh_sync_time_offset, transmission_security_key]
      (.obj [("__class__", .sc (.cls "CCTTSincgarsMP")), ("fh_net_id", fh_net_id.2), ("hop_set_id", hop_set_id.2),
      ("lockout_set_id", lockout_set_id.2), ("start_of_message", start_of_message.2),
      ("clear_channel", clear_channel.2), ("fh_sync_time_offset", fh_sync_time_offset.2),
      ("transmission_security_key", transmission_security_key.2), ("padding", .sc (.int 0))]) := by
  have a : Fills (fun self => CCTTSincgarsMP.initHeap self fh_net_id.1 hop_set_id.1 lockout_set_id.1 start_of_message.1 clear_channel.1 fh_sync_time_offset.1 transmission_security_key.1) [fh_net_id, hop_set_id, lockout_set_id, start_of_message, clear_channel, fh_sync_time_offset, transmission_security_key]
      (([("__class__", .sc (.cls "CCTTSincgarsMP")), ("fh_net_id", .sc .absent), ("hop_set_id", .sc .absent), ("lockout_set_id", .sc .absent), ("start_of_message", .sc .absent), ("clear_channel", .sc .absent), ("fh_sync_time_offset", .sc .absent), ("transmission_security_key", .sc .absent), ("padding", .sc .absent)] : List (String × Tree)) ++ []) []
      [("__class__", .sc (.cls "CCTTSincgarsMP")), ("fh_net_id", fh_net_id.2), ("hop_set_id", hop_set_id.2),
      ("lockout_set_id", lockout_set_id.2), ("start_of_message", start_of_message.2),
      ("clear_channel", clear_channel.2), ("fh_sync_time_offset", fh_sync_time_offset.2),
      ("transmission_security_key", transmission_security_key.2), ("padding", .sc (.int 0))] := by
    unfold CCTTSincgarsMP.initHeap
    refine .bind (.arg (p := fh_net_id) (by simp [attrOf_putAttr_isSome, attrOf, CCTTSincgarsMP.members])) ?_
    refine .bind (.arg (p := hop_set_id) (by simp [attrOf_putAttr_isSome, attrOf, CCTTSincgarsMP.members])) ?_
    refine .bind (.arg (p := lockout_set_id) (by simp [attrOf_putAttr_isSome, attrOf, CCTTSincgarsMP.members])) ?_
    refine .bind (.arg (p := start_of_message) (by simp [attrOf_putAttr_isSome, attrOf, CCTTSincgarsMP.members])) ?_
    refine .bind (.arg (p := clear_channel) (by simp [attrOf_putAttr_isSome, attrOf, CCTTSincgarsMP.members])) ?_
    refine .bind (.arg (p := fh_sync_time_offset) (by simp [attrOf_putAttr_isSome, attrOf, CCTTSincgarsMP.members])) ?_
    refine .bind (.arg (p := transmission_security_key) (by simp [attrOf_putAttr_isSome, attrOf, CCTTSincgarsMP.members])) ?_
    exact .cast (.inits (.set' (by simp [attrOf_putAttr_isSome, attrOf, CCTTSincgarsMP.members])))
      (by simp [putAttr, CCTTSincgarsMP.members, Tree.ints, Tree.objs, Tree.optInt, Tree.optObj, Tree.intOr, Tree.optFloat, Tree.noneOr, IntercomParametersValue.tree])
  exact .new a

theorem Ctor.CCTTSincgarsMP.lawful : Ctor.CCTTSincgarsMP.Lawful := by
  intro kv kt e ok
  refine .select [("fh_net_id", .int 0), ("hop_set_id", .int 0), ("lockout_set_id", .int 0), ("start_of_message", .int 0), ("clear_channel", .int 0), ("fh_sync_time_offset", .int 0), ("transmission_security_key", .int 0)] (by simp) e ?_
  exact .cast (CCTTSincgarsMP.builds ((attrOf "fh_net_id" kv).getD (.sc (.int 0)), (attrOf "fh_net_id" kt).getD (.sc (.int 0))) ((attrOf "hop_set_id" kv).getD (.sc (.int 0)), (attrOf "hop_set_id" kt).getD (.sc (.int 0))) ((attrOf "lockout_set_id" kv).getD (.sc (.int 0)), (attrOf "lockout_set_id" kt).getD (.sc (.int 0))) ((attrOf "start_of_message" kv).getD (.sc (.int 0)), (attrOf "start_of_message" kt).getD (.sc (.int 0))) ((attrOf "clear_channel" kv).getD (.sc (.int 0)), (attrOf "clear_channel" kt).getD (.sc (.int 0))) ((attrOf "fh_sync_time_offset" kv).getD (.sc (.int 0)), (attrOf "fh_sync_time_offset" kt).getD (.sc (.int 0))) ((attrOf "transmission_security_key" kv).getD (.sc (.int 0)), (attrOf "transmission_security_key" kt).getD (.sc (.int 0)))) (by
    simp [Ctor.built, Ctor.CCTTSincgarsMP, HeapClass.CCTTSincgarsMP, InPlace.value, InPlace.CCTTSincgarsMP, Codec.CCTTSincgarsMP, CCTTSincgarsMP.init, Param.put, Tree.change, value_asIs, value_orFresh, value_copy, Tree.or_list, CCTTSincgarsMP.members, Tree.ints, Tree.objs, Tree.optInt, Tree.optObj, Tree.intOr, Tree.optFloat, Tree.noneOr, IntercomParametersValue.tree])

theorem DEFireFlags.builds (weaponOn stateUpdateFlag : Val × Tree) :
    Builds (DEFireFlags.newHeap weaponOn.1 stateUpdateFlag.1) [weaponOn, stateUpdateFlag]
      (.obj [("weaponOn", weaponOn.2), ("stateUpdateFlag", stateUpdateFlag.2), ("padding", .sc (.int 0))]) := by
  have a : Fills (fun self => DEFireFlags.initHeap self weaponOn.1 stateUpdateFlag.1) [weaponOn, stateUpdateFlag]
      (([("weaponOn", .sc .absent), ("stateUpdateFlag", .sc .absent), ("padding", .sc .absent)] : List (String × Tree)) ++ []) []
      [("weaponOn", weaponOn.2), ("stateUpdateFlag", stateUpdateFlag.2), ("padding", .sc (.int 0))] := by
    unfold DEFireFlags.initHeap
    refine .bind (.arg (p := weaponOn) (by simp [attrOf_putAttr_isSome, attrOf, DEFireFlags.members])) ?_
    refine .bind (.arg (p := stateUpdateFlag) (by simp [attrOf_putAttr_isSome, attrOf, DEFireFlags.members])) ?_
    exact .cast (.inits (.set' (by simp [attrOf_putAttr_isSome, attrOf, DEFireFlags.members])))
      (by simp [putAttr, DEFireFlags.members, Tree.ints, Tree.objs, Tree.optInt, Tree.optObj, Tree.intOr, Tree.optFloat, Tree.noneOr, IntercomParametersValue.tree])
  exact .new a

theorem Ctor.DEFireFlags.lawful : Ctor.DEFireFlags.Lawful := by
  intro kv kt e ok
  refine .select [("weaponOn", .int 0), ("stateUpdateFlag", .int 0)] (by simp) e ?_
  exact .cast (DEFireFlags.builds ((attrOf "weaponOn" kv).getD (.sc (.int 0)), (attrOf "weaponOn" kt).getD (.sc (.int 0))) ((attrOf "stateUpdateFlag" kv).getD (.sc (.int 0)), (attrOf "stateUpdateFlag" kt).getD (.sc (.int 0)))) (by
    simp [Ctor.built, Ctor.DEFireFlags, HeapClass.DEFireFlags, InPlace.value, InPlace.DEFireFlags, Codec.DEFireFlags, DEFireFlags.init, Param.put, Tree.change, value_asIs, value_orFresh, value_copy, Tree.or_list, DEFireFlags.members, Tree.ints, Tree.objs, Tree.optInt, Tree.optObj, Tree.intOr, Tree.optFloat, Tree.noneOr, IntercomParametersValue.tree])

theorem DirectedEnergyTargetEnergyDeposition.builds (targetEntityID peakIrradiance : Val × Tree) :
    Builds (DirectedEnergyTargetEnergyDeposition.newHeap targetEntityID.1 peakIrradiance.1) [targetEntityID, peakIrradiance]
      (.obj [("targetEntityID", targetEntityID.2.or (.obj (EntityIdentifier.members EntityIdentifier.init))),
      ("padding", .sc (.int 0)), ("peakIrradiance", peakIrradiance.2)]) := by
  have a : Fills (fun self => DirectedEnergyTargetEnergyDeposition.initHeap self targetEntityID.1 peakIrradiance.1) [targetEntityID, peakIrradiance]
      (([("targetEntityID", .sc .absent), ("padding", .sc .absent), ("peakIrradiance", .sc .absent)] : List (String × Tree)) ++ []) []
      [("targetEntityID", targetEntityID.2.or (.obj (EntityIdentifier.members EntityIdentifier.init))),
      ("padding", .sc (.int 0)), ("peakIrradiance", peakIrradiance.2)] := by
    unfold DirectedEnergyTargetEnergyDeposition.initHeap
    refine .bind (.or (p := targetEntityID) EntityIdentifier.makesNew (by simp [attrOf_putAttr_isSome, attrOf, DirectedEnergyTargetEnergyDeposition.members])) ?_
    refine .bind (.inits (.set' (by simp [attrOf_putAttr_isSome, attrOf, DirectedEnergyTargetEnergyDeposition.members]))) ?_
    exact .cast (.arg (p := peakIrradiance) (by simp [attrOf_putAttr_isSome, attrOf, DirectedEnergyTargetEnergyDeposition.members]))
      (by simp [putAttr, DirectedEnergyTargetEnergyDeposition.members, Tree.ints, Tree.objs, Tree.optInt, Tree.optObj, Tree.intOr, Tree.optFloat, Tree.noneOr, IntercomParametersValue.tree])
  exact .new a

theorem Ctor.DirectedEnergyTargetEnergyDeposition.lawful : Ctor.DirectedEnergyTargetEnergyDeposition.Lawful := by
  intro kv kt e ok
  refine .select [("targetEntityID", .none), ("peakIrradiance", .float 0x0000000000000000)] (by simp) e ?_
  exact .cast (DirectedEnergyTargetEnergyDeposition.builds ((attrOf "targetEntityID" kv).getD (.sc (.none)), (attrOf "targetEntityID" kt).getD (.sc (.none))) ((attrOf "peakIrradiance" kv).getD (.sc (.float 0x0000000000000000)), (attrOf "peakIrradiance" kt).getD (.sc (.float 0x0000000000000000)))) (by
    simp [Ctor.built, Ctor.DirectedEnergyTargetEnergyDeposition, HeapClass.DirectedEnergyTargetEnergyDeposition, InPlace.value, InPlace.DirectedEnergyTargetEnergyDeposition, Codec.DirectedEnergyTargetEnergyDeposition, DirectedEnergyTargetEnergyDeposition.init, Param.put, Tree.change, value_asIs, value_orFresh, value_copy, Tree.or_list, DirectedEnergyTargetEnergyDeposition.members, Tree.ints, Tree.objs, Tree.optInt, Tree.optObj, Tree.intOr, Tree.optFloat, Tree.noneOr, IntercomParametersValue.tree])

theorem DirectedEnergyFirePdu.builds (munitionType shotStartTime cumulativeShotTime apertureEmitterLocation apertureDiameter wavelength pulseRepetitionFrequency pulseWidth flags pulseShape dERecords : Val × Tree) :
    Builds (DirectedEnergyFirePdu.newHeap munitionType.1 shotStartTime.1 cumulativeShotTime.1 apertureEmitterLocation.1 apertureDiameter.1 wavelength.1 pulseRepetitionFrequency.1 pulseWidth.1 flags.1 pulseShape.1 dERecords.1) [munitionType, shotStartTime, cumulativeShotTime, apertureEmitterLocation, apertureDiameter, wavelength, pulseRepetitionFrequency, pulseWidth, flags, pulseShape, dERecords]
      (.obj (WarfareFamilyPdu.members { pduType := 68, protocolFamily := 2 } ++ ([("munitionType", munitionType.2.or (.obj (EntityType.members EntityType.init))),
      ("shotStartTime", shotStartTime.2.or (.obj (ClockTime.members ClockTime.init))),
      ("cumulativeShotTime", cumulativeShotTime.2), ("commulativeShotTime", .sc .absent),
      ("apertureEmitterLocation", apertureEmitterLocation.2.or (.obj (Vector3Float.members Vector3Float.init))),
      ("apertureDiameter", apertureDiameter.2), ("wavelength", wavelength.2), ("padding1", .sc (.int 0)),
      ("pulseRepetitionFrequency", pulseRepetitionFrequency.2), ("pulseWidth", pulseWidth.2),
      ("flags", flags.2.or (.obj (DEFireFlags.members DEFireFlags.init))), ("pulseShape", pulseShape.2),
      ("padding2", .sc (.int 0)), ("padding3", .sc (.int 0)), ("padding4", .sc (.int 0)),
      ("dERecords", dERecords.2.or (.list []))] : List (String × Tree)))) := by
  have a : Fills (fun self => DirectedEnergyFirePdu.initHeap self munitionType.1 shotStartTime.1 cumulativeShotTime.1 apertureEmitterLocation.1 apertureDiameter.1 wavelength.1 pulseRepetitionFrequency.1 pulseWidth.1 flags.1 pulseShape.1 dERecords.1) [munitionType, shotStartTime, cumulativeShotTime, apertureEmitterLocation, apertureDiameter, wavelength, pulseRepetitionFrequency, pulseWidth, flags, pulseShape, dERecords]
      (([("protocolVersion", .sc .absent), ("exerciseID", .sc .absent), ("pduType", .sc (.int 68)), ("protocolFamily", .sc (.int 2)), ("timestamp", .sc .absent), ("length", .sc .absent)] : List (String × Tree)) ++
      (([("pduStatus", .sc .absent), ("padding", .sc .absent)] : List (String × Tree)) ++
      (([("firingEntityID", .sc .absent), ("targetEntityID", .sc .absent)] : List (String × Tree)) ++
      (([("munitionType", .sc .absent), ("shotStartTime", .sc .absent), ("cumulativeShotTime", .sc .absent), ("commulativeShotTime", .sc .absent), ("apertureEmitterLocation", .sc .absent), ("apertureDiameter", .sc .absent), ("wavelength", .sc .absent), ("padding1", .sc .absent), ("pulseRepetitionFrequency", .sc .absent), ("pulseWidth", .sc .absent), ("flags", .sc .absent), ("pulseShape", .sc .absent), ("padding2", .sc .absent), ("padding3", .sc .absent), ("padding4", .sc .absent), ("dERecords", .sc .absent)] : List (String × Tree)) ++ [])))) []
      (WarfareFamilyPdu.members { pduType := 68, protocolFamily := 2 } ++ ([("munitionType", munitionType.2.or (.obj (EntityType.members EntityType.init))),
      ("shotStartTime", shotStartTime.2.or (.obj (ClockTime.members ClockTime.init))),
      ("cumulativeShotTime", cumulativeShotTime.2), ("commulativeShotTime", .sc .absent),
      ("apertureEmitterLocation", apertureEmitterLocation.2.or (.obj (Vector3Float.members Vector3Float.init))),
      ("apertureDiameter", apertureDiameter.2), ("wavelength", wavelength.2), ("padding1", .sc (.int 0)),
      ("pulseRepetitionFrequency", pulseRepetitionFrequency.2), ("pulseWidth", pulseWidth.2),
      ("flags", flags.2.or (.obj (DEFireFlags.members DEFireFlags.init))), ("pulseShape", pulseShape.2),
      ("padding2", .sc (.int 0)), ("padding3", .sc (.int 0)), ("padding4", .sc (.int 0)),
      ("dERecords", dERecords.2.or (.list []))] : List (String × Tree))) := by
    unfold DirectedEnergyFirePdu.initHeap
    refine .bind (.inits (WarfareFamilyPdu.inits 68 2 _)) ?_
    refine .bind (.or (p := munitionType) EntityType.makesNew (by simp [attrOf_putAttr_isSome, attrOf, DirectedEnergyFirePdu.members, WarfareFamilyPdu.members, Pdu.members, PduSuperclass.members])) ?_
    refine .bind (.or (p := shotStartTime) ClockTime.makesNew (by simp [attrOf_putAttr_isSome, attrOf, DirectedEnergyFirePdu.members, WarfareFamilyPdu.members, Pdu.members, PduSuperclass.members])) ?_
    refine .bind (.arg (p := cumulativeShotTime) (by simp [attrOf_putAttr_isSome, attrOf, DirectedEnergyFirePdu.members, WarfareFamilyPdu.members, Pdu.members, PduSuperclass.members])) ?_
    refine .bind (.or (p := apertureEmitterLocation) Vector3Float.makesNew (by simp [attrOf_putAttr_isSome, attrOf, DirectedEnergyFirePdu.members, WarfareFamilyPdu.members, Pdu.members, PduSuperclass.members])) ?_
    refine .bind (.arg (p := apertureDiameter) (by simp [attrOf_putAttr_isSome, attrOf, DirectedEnergyFirePdu.members, WarfareFamilyPdu.members, Pdu.members, PduSuperclass.members])) ?_
    refine .bind (.arg (p := wavelength) (by simp [attrOf_putAttr_isSome, attrOf, DirectedEnergyFirePdu.members, WarfareFamilyPdu.members, Pdu.members, PduSuperclass.members])) ?_
    refine .bind (.inits (.set' (by simp [attrOf_putAttr_isSome, attrOf, DirectedEnergyFirePdu.members, WarfareFamilyPdu.members, Pdu.members, PduSuperclass.members]))) ?_
    refine .bind (.arg (p := pulseRepetitionFrequency) (by simp [attrOf_putAttr_isSome, attrOf, DirectedEnergyFirePdu.members, WarfareFamilyPdu.members, Pdu.members, PduSuperclass.members])) ?_
    refine .bind (.arg (p := pulseWidth) (by simp [attrOf_putAttr_isSome, attrOf, DirectedEnergyFirePdu.members, WarfareFamilyPdu.members, Pdu.members, PduSuperclass.members])) ?_
    refine .bind (.or (p := flags) DEFireFlags.makesNew (by simp [attrOf_putAttr_isSome, attrOf, DirectedEnergyFirePdu.members, WarfareFamilyPdu.members, Pdu.members, PduSuperclass.members])) ?_
    refine .bind (.arg (p := pulseShape) (by simp [attrOf_putAttr_isSome, attrOf, DirectedEnergyFirePdu.members, WarfareFamilyPdu.members, Pdu.members, PduSuperclass.members])) ?_
    refine .bind (.inits (.set' (by simp [attrOf_putAttr_isSome, attrOf, DirectedEnergyFirePdu.members, WarfareFamilyPdu.members, Pdu.members, PduSuperclass.members]))) ?_
    refine .bind (.inits (.set' (by simp [attrOf_putAttr_isSome, attrOf, DirectedEnergyFirePdu.members, WarfareFamilyPdu.members, Pdu.members, PduSuperclass.members]))) ?_
    refine .bind (.inits (.set' (by simp [attrOf_putAttr_isSome, attrOf, DirectedEnergyFirePdu.members, WarfareFamilyPdu.members, Pdu.members, PduSuperclass.members]))) ?_
    exact .cast (.or (p := dERecords) .empty (by simp [attrOf_putAttr_isSome, attrOf, DirectedEnergyFirePdu.members, WarfareFamilyPdu.members, Pdu.members, PduSuperclass.members]))
      (by simp [putAttr, DirectedEnergyFirePdu.members, WarfareFamilyPdu.members, Pdu.members, PduSuperclass.members, Tree.ints, Tree.objs, Tree.optInt, Tree.optObj, Tree.intOr, Tree.optFloat, Tree.noneOr, IntercomParametersValue.tree])
  exact .new a

theorem Ctor.DirectedEnergyFirePdu.lawful : Ctor.DirectedEnergyFirePdu.Lawful := by
  intro kv kt e ok
  refine .select [("munitionType", .none), ("shotStartTime", .none), ("cumulativeShotTime", .float 0x0000000000000000), ("apertureEmitterLocation", .none), ("apertureDiameter", .float 0x0000000000000000), ("wavelength", .float 0x0000000000000000), ("pulseRepetitionFrequency", .float 0x0000000000000000), ("pulseWidth", .float 0x0000000000000000), ("flags", .none), ("pulseShape", .int 0), ("dERecords", .none)] (by simp) e ?_
  exact .cast (DirectedEnergyFirePdu.builds ((attrOf "munitionType" kv).getD (.sc (.none)), (attrOf "munitionType" kt).getD (.sc (.none))) ((attrOf "shotStartTime" kv).getD (.sc (.none)), (attrOf "shotStartTime" kt).getD (.sc (.none))) ((attrOf "cumulativeShotTime" kv).getD (.sc (.float 0x0000000000000000)), (attrOf "cumulativeShotTime" kt).getD (.sc (.float 0x0000000000000000))) ((attrOf "apertureEmitterLocation" kv).getD (.sc (.none)), (attrOf "apertureEmitterLocation" kt).getD (.sc (.none))) ((attrOf "apertureDiameter" kv).getD (.sc (.float 0x0000000000000000)), (attrOf "apertureDiameter" kt).getD (.sc (.float 0x0000000000000000))) ((attrOf "wavelength" kv).getD (.sc (.float 0x0000000000000000)), (attrOf "wavelength" kt).getD (.sc (.float 0x0000000000000000))) ((attrOf "pulseRepetitionFrequency" kv).getD (.sc (.float 0x0000000000000000)), (attrOf "pulseRepetitionFrequency" kt).getD (.sc (.float 0x0000000000000000))) ((attrOf "pulseWidth" kv).getD (.sc (.float 0x0000000000000000)), (attrOf "pulseWidth" kt).getD (.sc (.float 0x0000000000000000))) ((attrOf "flags" kv).getD (.sc (.none)), (attrOf "flags" kt).getD (.sc (.none))) ((attrOf "pulseShape" kv).getD (.sc (.int 0)), (attrOf "pulseShape" kt).getD (.sc (.int 0))) ((attrOf "dERecords" kv).getD (.sc (.none)), (attrOf "dERecords" kt).getD (.sc (.none)))) (by
    simp [Ctor.built, Ctor.DirectedEnergyFirePdu, HeapClass.DirectedEnergyFirePdu, InPlace.value, InPlace.DirectedEnergyFirePdu, Codec.DirectedEnergyFirePdu, DirectedEnergyFirePdu.init, Param.put, Tree.change, value_asIs, value_orFresh, value_copy, Tree.or_list, DirectedEnergyFirePdu.members, WarfareFamilyPdu.members, Pdu.members, PduSuperclass.members, Tree.ints, Tree.objs, Tree.optInt, Tree.optObj, Tree.intOr, Tree.optFloat, Tree.noneOr, IntercomParametersValue.tree])

theorem EntityDamageStatusPdu.builds (damagedEntityID damageDescriptions : Val × Tree) :
    Builds (EntityDamageStatusPdu.newHeap damagedEntityID.1 damageDescriptions.1) [damagedEntityID, damageDescriptions]
      (.obj (WarfareFamilyPdu.members { pduType := 69, protocolFamily := 2 } ++ ([("damagedEntityID", damagedEntityID.2.or (.obj (EntityIdentifier.members EntityIdentifier.init))),
      ("padding1", .sc (.int 0)), ("padding2", .sc (.int 0)),
      ("damageDescriptions", damageDescriptions.2.or (.list []))] : List (String × Tree)))) := by
  have a : Fills (fun self => EntityDamageStatusPdu.initHeap self damagedEntityID.1 damageDescriptions.1) [damagedEntityID, damageDescriptions]
      (([("protocolVersion", .sc .absent), ("exerciseID", .sc .absent), ("pduType", .sc (.int 69)), ("protocolFamily", .sc (.int 2)), ("timestamp", .sc .absent), ("length", .sc .absent)] : List (String × Tree)) ++
      (([("pduStatus", .sc .absent), ("padding", .sc .absent)] : List (String × Tree)) ++
      (([("firingEntityID", .sc .absent), ("targetEntityID", .sc .absent)] : List (String × Tree)) ++
      (([("damagedEntityID", .sc .absent), ("padding1", .sc .absent), ("padding2", .sc .absent), ("damageDescriptions", .sc .absent)] : List (String × Tree)) ++ [])))) []
      (WarfareFamilyPdu.members { pduType := 69, protocolFamily := 2 } ++ ([("damagedEntityID", damagedEntityID.2.or (.obj (EntityIdentifier.members EntityIdentifier.init))),
      ("padding1", .sc (.int 0)), ("padding2", .sc (.int 0)),
      ("damageDescriptions", damageDescriptions.2.or (.list []))] : List (String × Tree))) := by
    unfold EntityDamageStatusPdu.initHeap
    refine .bind (.inits (WarfareFamilyPdu.inits 69 2 _)) ?_
    refine .bind (.or (p := damagedEntityID) EntityIdentifier.makesNew (by simp [attrOf_putAttr_isSome, attrOf, EntityDamageStatusPdu.members, WarfareFamilyPdu.members, Pdu.members, PduSuperclass.members])) ?_
    refine .bind (.inits (.set' (by simp [attrOf_putAttr_isSome, attrOf, EntityDamageStatusPdu.members, WarfareFamilyPdu.members, Pdu.members, PduSuperclass.members]))) ?_
    refine .bind (.inits (.set' (by simp [attrOf_putAttr_isSome, attrOf, EntityDamageStatusPdu.members, WarfareFamilyPdu.members, Pdu.members, PduSuperclass.members]))) ?_
    exact .cast (.or (p := damageDescriptions) .empty (by simp [attrOf_putAttr_isSome, attrOf, EntityDamageStatusPdu.members, WarfareFamilyPdu.members, Pdu.members, PduSuperclass.members]))
      (by simp [putAttr, EntityDamageStatusPdu.members, WarfareFamilyPdu.members, Pdu.members, PduSuperclass.members, Tree.ints, Tree.objs, Tree.optInt, Tree.optObj, Tree.intOr, Tree.optFloat, Tree.noneOr, IntercomParametersValue.tree])
  exact .new a

theorem Ctor.EntityDamageStatusPdu.lawful : Ctor.EntityDamageStatusPdu.Lawful := by
  intro kv kt e ok
  refine .select [("damagedEntityID", .none), ("damageDescriptions", .none)] (by simp) e ?_
  exact .cast (EntityDamageStatusPdu.builds ((attrOf "damagedEntityID" kv).getD (.sc (.none)), (attrOf "damagedEntityID" kt).getD (.sc (.none))) ((attrOf "damageDescriptions" kv).getD (.sc (.none)), (attrOf "damageDescriptions" kt).getD (.sc (.none)))) (by
    simp [Ctor.built, Ctor.EntityDamageStatusPdu, HeapClass.EntityDamageStatusPdu, InPlace.value, InPlace.EntityDamageStatusPdu, Codec.EntityDamageStatusPdu, EntityDamageStatusPdu.init, Param.put, Tree.change, value_asIs, value_orFresh, value_copy, Tree.or_list, EntityDamageStatusPdu.members, WarfareFamilyPdu.members, Pdu.members, PduSuperclass.members, Tree.ints, Tree.objs, Tree.optInt, Tree.optObj, Tree.intOr, Tree.optFloat, Tree.noneOr, IntercomParametersValue.tree])

theorem TransmitterPdu.builds (radioReferenceID radioNumber radioEntityType transmitState inputSource antennaLocation relativeAntennaLocation antennaPatternType frequency transmitFrequencyBandwidth power modulationType cryptoSystem cryptoKeyId modulationParameters antennaPattern variableTransmitterParameters : Val × Tree) (ok_variableTransmitterParameters : Keeps.Accepts .copy variableTransmitterParameters.2) :
    Builds (TransmitterPdu.newHeap radioReferenceID.1 radioNumber.1 radioEntityType.1 transmitState.1 inputSource.1 antennaLocation.1 relativeAntennaLocation.1 antennaPatternType.1 frequency.1 transmitFrequencyBandwidth.1 power.1 modulationType.1 cryptoSystem.1 cryptoKeyId.1 modulationParameters.1 antennaPattern.1 variableTransmitterParameters.1) [radioReferenceID, radioNumber, radioEntityType, transmitState, inputSource, antennaLocation, relativeAntennaLocation, antennaPatternType, frequency, transmitFrequencyBandwidth, power, modulationType, cryptoSystem, cryptoKeyId, modulationParameters, antennaPattern, variableTransmitterParameters]
      (.obj (RadioCommunicationsFamilyPdu.members { pduType := 25, protocolFamily := 4 } ++ ([("radioReferenceID", radioReferenceID.2.or (.obj (EntityIdentifier.members EntityIdentifier.init))),
      ("radioNumber", radioNumber.2),
      ("radioEntityType", radioEntityType.2.or (.obj (EntityType.members EntityType.init))),
      ("transmitState", transmitState.2), ("inputSource", inputSource.2),
      ("antennaLocation", antennaLocation.2.or (.obj (WorldCoordinates.members WorldCoordinates.init))),
      ("relativeAntennaLocation", relativeAntennaLocation.2.or (.obj (Vector3Float.members Vector3Float.init))),
      ("antennaPatternType", antennaPatternType.2), ("frequency", frequency.2),
      ("transmitFrequencyBandwidth", transmitFrequencyBandwidth.2), ("power", power.2),
      ("modulationType", modulationType.2.or (.obj (ModulationType.members ModulationType.init))),
      ("cryptoSystem", cryptoSystem.2), ("cryptoKeyId", cryptoKeyId.2), ("padding2", .sc (.int 0)),
      ("padding3", .sc (.int 0)), ("modulationParameters", modulationParameters.2),
      ("antennaPattern", antennaPattern.2),
      ("variableTransmitterParameters", variableTransmitterParameters.2.or (.list []))] : List (String × Tree)))) := by
  have a : Fills (fun self => TransmitterPdu.initHeap self radioReferenceID.1 radioNumber.1 radioEntityType.1 transmitState.1 inputSource.1 antennaLocation.1 relativeAntennaLocation.1 antennaPatternType.1 frequency.1 transmitFrequencyBandwidth.1 power.1 modulationType.1 cryptoSystem.1 cryptoKeyId.1 modulationParameters.1 antennaPattern.1 variableTransmitterParameters.1) [radioReferenceID, radioNumber, radioEntityType, transmitState, inputSource, antennaLocation, relativeAntennaLocation, antennaPatternType, frequency, transmitFrequencyBandwidth, power, modulationType, cryptoSystem, cryptoKeyId, modulationParameters, antennaPattern, variableTransmitterParameters]
      (([("protocolVersion", .sc .absent), ("exerciseID", .sc .absent), ("pduType", .sc (.int 25)), ("protocolFamily", .sc (.int 4)), ("timestamp", .sc .absent), ("length", .sc .absent)] : List (String × Tree)) ++
      (([("pduStatus", .sc .absent), ("padding", .sc .absent)] : List (String × Tree)) ++
      ([] ++
      (([("radioReferenceID", .sc .absent), ("radioNumber", .sc .absent), ("radioEntityType", .sc .absent), ("transmitState", .sc .absent), ("inputSource", .sc .absent), ("antennaLocation", .sc .absent), ("relativeAntennaLocation", .sc .absent), ("antennaPatternType", .sc .absent), ("frequency", .sc .absent), ("transmitFrequencyBandwidth", .sc .absent), ("power", .sc .absent), ("modulationType", .sc .absent), ("cryptoSystem", .sc .absent), ("cryptoKeyId", .sc .absent), ("padding2", .sc .absent), ("padding3", .sc .absent), ("modulationParameters", .sc .absent), ("antennaPattern", .sc .absent), ("variableTransmitterParameters", .sc .absent)] : List (String × Tree)) ++ [])))) []
      (RadioCommunicationsFamilyPdu.members { pduType := 25, protocolFamily := 4 } ++ ([("radioReferenceID", radioReferenceID.2.or (.obj (EntityIdentifier.members EntityIdentifier.init))),
      ("radioNumber", radioNumber.2),
      ("radioEntityType", radioEntityType.2.or (.obj (EntityType.members EntityType.init))),
      ("transmitState", transmitState.2), ("inputSource", inputSource.2),
      ("antennaLocation", antennaLocation.2.or (.obj (WorldCoordinates.members WorldCoordinates.init))),
      ("relativeAntennaLocation", relativeAntennaLocation.2.or (.obj (Vector3Float.members Vector3Float.init))),
      ("antennaPatternType", antennaPatternType.2), ("frequency", frequency.2),
      ("transmitFrequencyBandwidth", transmitFrequencyBandwidth.2), ("power", power.2),
      ("modulationType", modulationType.2.or (.obj (ModulationType.members ModulationType.init))),
      ("cryptoSystem", cryptoSystem.2), ("cryptoKeyId", cryptoKeyId.2), ("padding2", .sc (.int 0)),
      ("padding3", .sc (.int 0)), ("modulationParameters", modulationParameters.2),
      ("antennaPattern", antennaPattern.2),
      ("variableTransmitterParameters", variableTransmitterParameters.2.or (.list []))] : List (String × Tree))) := by
    unfold TransmitterPdu.initHeap
    refine .bind (.inits (RadioCommunicationsFamilyPdu.inits 25 4 _)) ?_
    refine .bind (.or (p := radioReferenceID) EntityIdentifier.makesNew (by simp [attrOf_putAttr_isSome, attrOf, TransmitterPdu.members, RadioCommunicationsFamilyPdu.members, Pdu.members, PduSuperclass.members])) ?_
    refine .bind (.arg (p := radioNumber) (by simp [attrOf_putAttr_isSome, attrOf, TransmitterPdu.members, RadioCommunicationsFamilyPdu.members, Pdu.members, PduSuperclass.members])) ?_
    refine .bind (.or (p := radioEntityType) EntityType.makesNew (by simp [attrOf_putAttr_isSome, attrOf, TransmitterPdu.members, RadioCommunicationsFamilyPdu.members, Pdu.members, PduSuperclass.members])) ?_
    refine .bind (.arg (p := transmitState) (by simp [attrOf_putAttr_isSome, attrOf, TransmitterPdu.members, RadioCommunicationsFamilyPdu.members, Pdu.members, PduSuperclass.members])) ?_
    refine .bind (.arg (p := inputSource) (by simp [attrOf_putAttr_isSome, attrOf, TransmitterPdu.members, RadioCommunicationsFamilyPdu.members, Pdu.members, PduSuperclass.members])) ?_
    refine .bind (.or (p := antennaLocation) WorldCoordinates.makesNew (by simp [attrOf_putAttr_isSome, attrOf, TransmitterPdu.members, RadioCommunicationsFamilyPdu.members, Pdu.members, PduSuperclass.members])) ?_
    refine .bind (.or (p := relativeAntennaLocation) Vector3Float.makesNew (by simp [attrOf_putAttr_isSome, attrOf, TransmitterPdu.members, RadioCommunicationsFamilyPdu.members, Pdu.members, PduSuperclass.members])) ?_
    refine .bind (.arg (p := antennaPatternType) (by simp [attrOf_putAttr_isSome, attrOf, TransmitterPdu.members, RadioCommunicationsFamilyPdu.members, Pdu.members, PduSuperclass.members])) ?_
    refine .bind (.arg (p := frequency) (by simp [attrOf_putAttr_isSome, attrOf, TransmitterPdu.members, RadioCommunicationsFamilyPdu.members, Pdu.members, PduSuperclass.members])) ?_
    refine .bind (.arg (p := transmitFrequencyBandwidth) (by simp [attrOf_putAttr_isSome, attrOf, TransmitterPdu.members, RadioCommunicationsFamilyPdu.members, Pdu.members, PduSuperclass.members])) ?_
    refine .bind (.arg (p := power) (by simp [attrOf_putAttr_isSome, attrOf, TransmitterPdu.members, RadioCommunicationsFamilyPdu.members, Pdu.members, PduSuperclass.members])) ?_
    refine .bind (.or (p := modulationType) ModulationType.makesNew (by simp [attrOf_putAttr_isSome, attrOf, TransmitterPdu.members, RadioCommunicationsFamilyPdu.members, Pdu.members, PduSuperclass.members])) ?_
    refine .bind (.arg (p := cryptoSystem) (by simp [attrOf_putAttr_isSome, attrOf, TransmitterPdu.members, RadioCommunicationsFamilyPdu.members, Pdu.members, PduSuperclass.members])) ?_
    refine .bind (.arg (p := cryptoKeyId) (by simp [attrOf_putAttr_isSome, attrOf, TransmitterPdu.members, RadioCommunicationsFamilyPdu.members, Pdu.members, PduSuperclass.members])) ?_
    refine .bind (.inits (.set' (by simp [attrOf_putAttr_isSome, attrOf, TransmitterPdu.members, RadioCommunicationsFamilyPdu.members, Pdu.members, PduSuperclass.members]))) ?_
    refine .bind (.inits (.set' (by simp [attrOf_putAttr_isSome, attrOf, TransmitterPdu.members, RadioCommunicationsFamilyPdu.members, Pdu.members, PduSuperclass.members]))) ?_
    refine .bind (.arg (p := modulationParameters) (by simp [attrOf_putAttr_isSome, attrOf, TransmitterPdu.members, RadioCommunicationsFamilyPdu.members, Pdu.members, PduSuperclass.members])) ?_
    refine .bind (.arg (p := antennaPattern) (by simp [attrOf_putAttr_isSome, attrOf, TransmitterPdu.members, RadioCommunicationsFamilyPdu.members, Pdu.members, PduSuperclass.members])) ?_
    exact .cast (.copy (p := variableTransmitterParameters) ok_variableTransmitterParameters (by simp [attrOf_putAttr_isSome, attrOf, TransmitterPdu.members, RadioCommunicationsFamilyPdu.members, Pdu.members, PduSuperclass.members]))
      (by simp [putAttr, TransmitterPdu.members, RadioCommunicationsFamilyPdu.members, Pdu.members, PduSuperclass.members, Tree.ints, Tree.objs, Tree.optInt, Tree.optObj, Tree.intOr, Tree.optFloat, Tree.noneOr, IntercomParametersValue.tree])
  exact .new a

theorem Ctor.TransmitterPdu.lawful : Ctor.TransmitterPdu.Lawful := by
  intro kv kt e ok
  refine .select [("radioReferenceID", .none), ("radioNumber", .int 0), ("radioEntityType", .none), ("transmitState", .int 0), ("inputSource", .int 0), ("antennaLocation", .none), ("relativeAntennaLocation", .none), ("antennaPatternType", .int 0), ("frequency", .int 0), ("transmitFrequencyBandwidth", .float 0x0000000000000000), ("power", .float 0x0000000000000000), ("modulationType", .none), ("cryptoSystem", .int 0), ("cryptoKeyId", .int 0), ("modulationParameters", .none), ("antennaPattern", .none), ("variableTransmitterParameters", .none)] (by simp) e ?_
  have c : Keeps.Accepts .copy ((attrOf "variableTransmitterParameters" kt).getD (.sc (.none))) := Ctor.copy_suits ok ⟨"variableTransmitterParameters", ["variableTransmitterParameters"], .copy⟩ (by simp [Ctor.TransmitterPdu]) rfl
  exact .cast (TransmitterPdu.builds ((attrOf "radioReferenceID" kv).getD (.sc (.none)), (attrOf "radioReferenceID" kt).getD (.sc (.none))) ((attrOf "radioNumber" kv).getD (.sc (.int 0)), (attrOf "radioNumber" kt).getD (.sc (.int 0))) ((attrOf "radioEntityType" kv).getD (.sc (.none)), (attrOf "radioEntityType" kt).getD (.sc (.none))) ((attrOf "transmitState" kv).getD (.sc (.int 0)), (attrOf "transmitState" kt).getD (.sc (.int 0))) ((attrOf "inputSource" kv).getD (.sc (.int 0)), (attrOf "inputSource" kt).getD (.sc (.int 0))) ((attrOf "antennaLocation" kv).getD (.sc (.none)), (attrOf "antennaLocation" kt).getD (.sc (.none))) ((attrOf "relativeAntennaLocation" kv).getD (.sc (.none)), (attrOf "relativeAntennaLocation" kt).getD (.sc (.none))) ((attrOf "antennaPatternType" kv).getD (.sc (.int 0)), (attrOf "antennaPatternType" kt).getD (.sc (.int 0))) ((attrOf "frequency" kv).getD (.sc (.int 0)), (attrOf "frequency" kt).getD (.sc (.int 0))) ((attrOf "transmitFrequencyBandwidth" kv).getD (.sc (.float 0x0000000000000000)), (attrOf "transmitFrequencyBandwidth" kt).getD (.sc (.float 0x0000000000000000))) ((attrOf "power" kv).getD (.sc (.float 0x0000000000000000)), (attrOf "power" kt).getD (.sc (.float 0x0000000000000000))) ((attrOf "modulationType" kv).getD (.sc (.none)), (attrOf "modulationType" kt).getD (.sc (.none))) ((attrOf "cryptoSystem" kv).getD (.sc (.int 0)), (attrOf "cryptoSystem" kt).getD (.sc (.int 0))) ((attrOf "cryptoKeyId" kv).getD (.sc (.int 0)), (attrOf "cryptoKeyId" kt).getD (.sc (.int 0))) ((attrOf "modulationParameters" kv).getD (.sc (.none)), (attrOf "modulationParameters" kt).getD (.sc (.none))) ((attrOf "antennaPattern" kv).getD (.sc (.none)), (attrOf "antennaPattern" kt).getD (.sc (.none))) ((attrOf "variableTransmitterParameters" kv).getD (.sc (.none)), (attrOf "variableTransmitterParameters" kt).getD (.sc (.none))) c) (by
    simp [Ctor.built, Ctor.TransmitterPdu, HeapClass.TransmitterPdu, TransmitterPdu.init, Param.put, Tree.change, value_asIs, value_orFresh, value_copy, Tree.or_list, TransmitterPdu.members, RadioCommunicationsFamilyPdu.members, Pdu.members, PduSuperclass.members, Tree.ints, Tree.objs, Tree.optInt, Tree.optObj, Tree.intOr, Tree.optFloat, Tree.noneOr, IntercomParametersValue.tree])

theorem IntercomControlPdu.builds (controlType communicationsChannelType sourceEntityID sourceCommunicationsDeviceID sourceLineID transmitPriority transmitLineState command masterEntityID masterCommunicationsDeviceID intercomParameters : Val × Tree) :
    Builds (IntercomControlPdu.newHeap controlType.1 communicationsChannelType.1 sourceEntityID.1 sourceCommunicationsDeviceID.1 sourceLineID.1 transmitPriority.1 transmitLineState.1 command.1 masterEntityID.1 masterCommunicationsDeviceID.1 intercomParameters.1) [controlType, communicationsChannelType, sourceEntityID, sourceCommunicationsDeviceID, sourceLineID, transmitPriority, transmitLineState, command, masterEntityID, masterCommunicationsDeviceID, intercomParameters]
      (.obj (RadioCommunicationsFamilyPdu.members { pduType := 32, protocolFamily := 4 } ++ ([("controlType", controlType.2), ("communicationsChannelType", communicationsChannelType.2),
      ("sourceEntityID", sourceEntityID.2.or (.obj (EntityIdentifier.members EntityIdentifier.init))),
      ("sourceCommunicationsDeviceID", sourceCommunicationsDeviceID.2), ("sourceLineID", sourceLineID.2),
      ("transmitPriority", transmitPriority.2), ("transmitLineState", transmitLineState.2),
      ("command", command.2),
      ("masterEntityID", masterEntityID.2.or (.obj (EntityIdentifier.members EntityIdentifier.init))),
      ("masterCommunicationsDeviceID", masterCommunicationsDeviceID.2),
      ("intercomParameters", intercomParameters.2)] : List (String × Tree)))) := by
  have a : Fills (fun self => IntercomControlPdu.initHeap self controlType.1 communicationsChannelType.1 sourceEntityID.1 sourceCommunicationsDeviceID.1 sourceLineID.1 transmitPriority.1 transmitLineState.1 command.1 masterEntityID.1 masterCommunicationsDeviceID.1 intercomParameters.1) [controlType, communicationsChannelType, sourceEntityID, sourceCommunicationsDeviceID, sourceLineID, transmitPriority, transmitLineState, command, masterEntityID, masterCommunicationsDeviceID, intercomParameters]
      (([("protocolVersion", .sc .absent), ("exerciseID", .sc .absent), ("pduType", .sc (.int 32)), ("protocolFamily", .sc (.int 4)), ("timestamp", .sc .absent), ("length", .sc .absent)] : List (String × Tree)) ++
      (([("pduStatus", .sc .absent), ("padding", .sc .absent)] : List (String × Tree)) ++
      ([] ++
      (([("controlType", .sc .absent), ("communicationsChannelType", .sc .absent), ("sourceEntityID", .sc .absent), ("sourceCommunicationsDeviceID", .sc .absent), ("sourceLineID", .sc .absent), ("transmitPriority", .sc .absent), ("transmitLineState", .sc .absent), ("command", .sc .absent), ("masterEntityID", .sc .absent), ("masterCommunicationsDeviceID", .sc .absent), ("intercomParameters", .sc .absent)] : List (String × Tree)) ++ [])))) []
      (RadioCommunicationsFamilyPdu.members { pduType := 32, protocolFamily := 4 } ++ ([("controlType", controlType.2), ("communicationsChannelType", communicationsChannelType.2),
      ("sourceEntityID", sourceEntityID.2.or (.obj (EntityIdentifier.members EntityIdentifier.init))),
      ("sourceCommunicationsDeviceID", sourceCommunicationsDeviceID.2), ("sourceLineID", sourceLineID.2),
      ("transmitPriority", transmitPriority.2), ("transmitLineState", transmitLineState.2),
      ("command", command.2),
      ("masterEntityID", masterEntityID.2.or (.obj (EntityIdentifier.members EntityIdentifier.init))),
      ("masterCommunicationsDeviceID", masterCommunicationsDeviceID.2),
      ("intercomParameters", intercomParameters.2)] : List (String × Tree))) := by
    unfold IntercomControlPdu.initHeap
    refine .bind (.inits (RadioCommunicationsFamilyPdu.inits 32 4 _)) ?_
    refine .bind (.arg (p := controlType) (by simp [attrOf_putAttr_isSome, attrOf, IntercomControlPdu.members, RadioCommunicationsFamilyPdu.members, Pdu.members, PduSuperclass.members])) ?_
    refine .bind (.arg (p := communicationsChannelType) (by simp [attrOf_putAttr_isSome, attrOf, IntercomControlPdu.members, RadioCommunicationsFamilyPdu.members, Pdu.members, PduSuperclass.members])) ?_
    refine .bind (.or (p := sourceEntityID) EntityIdentifier.makesNew (by simp [attrOf_putAttr_isSome, attrOf, IntercomControlPdu.members, RadioCommunicationsFamilyPdu.members, Pdu.members, PduSuperclass.members])) ?_
    refine .bind (.arg (p := sourceCommunicationsDeviceID) (by simp [attrOf_putAttr_isSome, attrOf, IntercomControlPdu.members, RadioCommunicationsFamilyPdu.members, Pdu.members, PduSuperclass.members])) ?_
    refine .bind (.arg (p := sourceLineID) (by simp [attrOf_putAttr_isSome, attrOf, IntercomControlPdu.members, RadioCommunicationsFamilyPdu.members, Pdu.members, PduSuperclass.members])) ?_
    refine .bind (.arg (p := transmitPriority) (by simp [attrOf_putAttr_isSome, attrOf, IntercomControlPdu.members, RadioCommunicationsFamilyPdu.members, Pdu.members, PduSuperclass.members])) ?_
    refine .bind (.arg (p := transmitLineState) (by simp [attrOf_putAttr_isSome, attrOf, IntercomControlPdu.members, RadioCommunicationsFamilyPdu.members, Pdu.members, PduSuperclass.members])) ?_
    refine .bind (.arg (p := command) (by simp [attrOf_putAttr_isSome, attrOf, IntercomControlPdu.members, RadioCommunicationsFamilyPdu.members, Pdu.members, PduSuperclass.members])) ?_
    refine .bind (.or (p := masterEntityID) EntityIdentifier.makesNew (by simp [attrOf_putAttr_isSome, attrOf, IntercomControlPdu.members, RadioCommunicationsFamilyPdu.members, Pdu.members, PduSuperclass.members])) ?_
    refine .bind (.arg (p := masterCommunicationsDeviceID) (by simp [attrOf_putAttr_isSome, attrOf, IntercomControlPdu.members, RadioCommunicationsFamilyPdu.members, Pdu.members, PduSuperclass.members])) ?_
    exact .cast (.arg (p := intercomParameters) (by simp [attrOf_putAttr_isSome, attrOf, IntercomControlPdu.members, RadioCommunicationsFamilyPdu.members, Pdu.members, PduSuperclass.members]))
      (by simp [putAttr, IntercomControlPdu.members, RadioCommunicationsFamilyPdu.members, Pdu.members, PduSuperclass.members, Tree.ints, Tree.objs, Tree.optInt, Tree.optObj, Tree.intOr, Tree.optFloat, Tree.noneOr, IntercomParametersValue.tree])
  exact .new a

theorem Ctor.IntercomControlPdu.lawful : Ctor.IntercomControlPdu.Lawful := by
  intro kv kt e ok
  refine .select [("controlType", .int 0), ("communicationsChannelType", .int 0), ("sourceEntityID", .none), ("sourceCommunicationsDeviceID", .int 0), ("sourceLineID", .int 0), ("transmitPriority", .int 0), ("transmitLineState", .int 0), ("command", .int 0), ("masterEntityID", .none), ("masterCommunicationsDeviceID", .int 0), ("intercomParameters", .none)] (by simp) e ?_
  exact .cast (IntercomControlPdu.builds ((attrOf "controlType" kv).getD (.sc (.int 0)), (attrOf "controlType" kt).getD (.sc (.int 0))) ((attrOf "communicationsChannelType" kv).getD (.sc (.int 0)), (attrOf "communicationsChannelType" kt).getD (.sc (.int 0))) ((attrOf "sourceEntityID" kv).getD (.sc (.none)), (attrOf "sourceEntityID" kt).getD (.sc (.none))) ((attrOf "sourceCommunicationsDeviceID" kv).getD (.sc (.int 0)), (attrOf "sourceCommunicationsDeviceID" kt).getD (.sc (.int 0))) ((attrOf "sourceLineID" kv).getD (.sc (.int 0)), (attrOf "sourceLineID" kt).getD (.sc (.int 0))) ((attrOf "transmitPriority" kv).getD (.sc (.int 0)), (attrOf "transmitPriority" kt).getD (.sc (.int 0))) ((attrOf "transmitLineState" kv).getD (.sc (.int 0)), (attrOf "transmitLineState" kt).getD (.sc (.int 0))) ((attrOf "command" kv).getD (.sc (.int 0)), (attrOf "command" kt).getD (.sc (.int 0))) ((attrOf "masterEntityID" kv).getD (.sc (.none)), (attrOf "masterEntityID" kt).getD (.sc (.none))) ((attrOf "masterCommunicationsDeviceID" kv).getD (.sc (.int 0)), (attrOf "masterCommunicationsDeviceID" kt).getD (.sc (.int 0))) ((attrOf "intercomParameters" kv).getD (.sc (.none)), (attrOf "intercomParameters" kt).getD (.sc (.none)))) (by
    simp [Ctor.built, Ctor.IntercomControlPdu, HeapClass.IntercomControlPdu, IntercomControlPdu.init, Param.put, Tree.change, value_asIs, value_orFresh, value_copy, Tree.or_list, IntercomControlPdu.members, RadioCommunicationsFamilyPdu.members, Pdu.members, PduSuperclass.members, Tree.ints, Tree.objs, Tree.optInt, Tree.optObj, Tree.intOr, Tree.optFloat, Tree.noneOr, IntercomParametersValue.tree])

end Dis
