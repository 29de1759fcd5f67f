import Verif.Proof.HeapCtors1

/-!
# Constructors with arguments, part 2

Generated by `tools/genheapargs.py`.
-/

set_option linter.unusedVariables false
set_option linter.unusedSimpArgs false

namespace Dis

theorem IOCommunicationsNode.builds (communicationsNodeType communicationsNodeID : Val × Tree) :
    Builds (IOCommunicationsNode.newHeap communicationsNodeType.1 communicationsNodeID.1) [communicationsNodeType, communicationsNodeID]
      (.obj [("recordType", .sc (.int 5501)), ("recordLength", .sc (.int 16)),
      ("communcationsNodeType", communicationsNodeType.2), ("padding", .sc (.int 0)),
      ("communicationsNodeID", communicationsNodeID.2.or (.obj (CommunicationsNodeID.members CommunicationsNodeID.init)))]) := by
  have a : Fills (fun self => IOCommunicationsNode.initHeap self communicationsNodeType.1 communicationsNodeID.1) [communicationsNodeType, communicationsNodeID]
      (([("recordType", .sc (.int 5501)), ("recordLength", .sc (.int 16)), ("communcationsNodeType", .sc .absent), ("padding", .sc .absent), ("communicationsNodeID", .sc .absent)] : List (String × Tree)) ++ []) []
      [("recordType", .sc (.int 5501)), ("recordLength", .sc (.int 16)),
      ("communcationsNodeType", communicationsNodeType.2), ("padding", .sc (.int 0)),
      ("communicationsNodeID", communicationsNodeID.2.or (.obj (CommunicationsNodeID.members CommunicationsNodeID.init)))] := by
    unfold IOCommunicationsNode.initHeap
    refine .bind (.arg (p := communicationsNodeType) (by simp [attrOf_putAttr_isSome, attrOf, IOCommunicationsNode.members])) ?_
    refine .bind (.inits (.set' (by simp [attrOf_putAttr_isSome, attrOf, IOCommunicationsNode.members]))) ?_
    exact .cast (.or (p := communicationsNodeID) CommunicationsNodeID.makesNew (by simp [attrOf_putAttr_isSome, attrOf, IOCommunicationsNode.members]))
      (by simp [putAttr, IOCommunicationsNode.members, Tree.ints, Tree.objs, Tree.optInt, Tree.optObj, Tree.intOr, Tree.optFloat, Tree.noneOr, IntercomParametersValue.tree])
  exact .new a

theorem Ctor.IOCommunicationsNode.lawful : Ctor.IOCommunicationsNode.Lawful := by
  intro kv kt e ok
  refine .select [("communicationsNodeType", .int 0), ("communicationsNodeID", .none)] (by simp) e ?_
  exact .cast (IOCommunicationsNode.builds ((attrOf "communicationsNodeType" kv).getD (.sc (.int 0)), (attrOf "communicationsNodeType" kt).getD (.sc (.int 0))) ((attrOf "communicationsNodeID" kv).getD (.sc (.none)), (attrOf "communicationsNodeID" kt).getD (.sc (.none)))) (by
    simp [Ctor.built, Ctor.IOCommunicationsNode, HeapClass.IOCommunicationsNode, InPlace.value, InPlace.IOCommunicationsNode, Codec.IOCommunicationsNode, IOCommunicationsNode.init, Param.put, Tree.change, value_asIs, value_orFresh, value_copy, Tree.or_list, IOCommunicationsNode.members, Tree.ints, Tree.objs, Tree.optInt, Tree.optObj, Tree.intOr, Tree.optFloat, Tree.noneOr, IntercomParametersValue.tree])

theorem LinearSegmentParameter.builds (segmentNumber segmentModification generalSegmentAppearance specificSegmentAppearance segmentLocation segmentOrientation segmentLength segmentWidth segmentHeight segmentDepth : Val × Tree) :
    Builds (LinearSegmentParameter.newHeap segmentNumber.1 segmentModification.1 generalSegmentAppearance.1 specificSegmentAppearance.1 segmentLocation.1 segmentOrientation.1 segmentLength.1 segmentWidth.1 segmentHeight.1 segmentDepth.1) [segmentNumber, segmentModification, generalSegmentAppearance, specificSegmentAppearance, segmentLocation, segmentOrientation, segmentLength, segmentWidth, segmentHeight, segmentDepth]
      (.obj [("segmentNumber", segmentNumber.2), ("segmentModification", segmentModification.2),
      ("generalSegmentAppearance", generalSegmentAppearance.2),
      ("specificSegmentAppearance", specificSegmentAppearance.2),
      ("segmentLocation", segmentLocation.2.or (.obj (WorldCoordinates.members WorldCoordinates.init))),
      ("segmentOrientation", segmentOrientation.2.or (.obj (EulerAngles.members EulerAngles.init))),
      ("segmentLength", segmentLength.2), ("segmentWidth", segmentWidth.2),
      ("segmentHeight", segmentHeight.2), ("segmentDepth", segmentDepth.2), ("padding", .sc (.int 0))]) := by
  have a : Fills (fun self => LinearSegmentParameter.initHeap self segmentNumber.1 segmentModification.1 generalSegmentAppearance.1 specificSegmentAppearance.1 segmentLocation.1 segmentOrientation.1 segmentLength.1 segmentWidth.1 segmentHeight.1 segmentDepth.1) [segmentNumber, segmentModification, generalSegmentAppearance, specificSegmentAppearance, segmentLocation, segmentOrientation, segmentLength, segmentWidth, segmentHeight, segmentDepth]
      (([("segmentNumber", .sc .absent), ("segmentModification", .sc .absent), ("generalSegmentAppearance", .sc .absent), ("specificSegmentAppearance", .sc .absent), ("segmentLocation", .sc .absent), ("segmentOrientation", .sc .absent), ("segmentLength", .sc .absent), ("segmentWidth", .sc .absent), ("segmentHeight", .sc .absent), ("segmentDepth", .sc .absent), ("padding", .sc .absent)] : List (String × Tree)) ++ []) []
      [("segmentNumber", segmentNumber.2), ("segmentModification", segmentModification.2),
      ("generalSegmentAppearance", generalSegmentAppearance.2),
      ("specificSegmentAppearance", specificSegmentAppearance.2),
      ("segmentLocation", segmentLocation.2.or (.obj (WorldCoordinates.members WorldCoordinates.init))),
      ("segmentOrientation", segmentOrientation.2.or (.obj (EulerAngles.members EulerAngles.init))),
      ("segmentLength", segmentLength.2), ("segmentWidth", segmentWidth.2),
      ("segmentHeight", segmentHeight.2), ("segmentDepth", segmentDepth.2), ("padding", .sc (.int 0))] := by
    unfold LinearSegmentParameter.initHeap
    refine .bind (.arg (p := segmentNumber) (by simp [attrOf_putAttr_isSome, attrOf, LinearSegmentParameter.members])) ?_
    refine .bind (.arg (p := segmentModification) (by simp [attrOf_putAttr_isSome, attrOf, LinearSegmentParameter.members])) ?_
    refine .bind (.arg (p := generalSegmentAppearance) (by simp [attrOf_putAttr_isSome, attrOf, LinearSegmentParameter.members])) ?_
    refine .bind (.arg (p := specificSegmentAppearance) (by simp [attrOf_putAttr_isSome, attrOf, LinearSegmentParameter.members])) ?_
    refine .bind (.or (p := segmentLocation) WorldCoordinates.makesNew (by simp [attrOf_putAttr_isSome, attrOf, LinearSegmentParameter.members])) ?_
    refine .bind (.or (p := segmentOrientation) EulerAngles.makesNew (by simp [attrOf_putAttr_isSome, attrOf, LinearSegmentParameter.members])) ?_
    refine .bind (.arg (p := segmentLength) (by simp [attrOf_putAttr_isSome, attrOf, LinearSegmentParameter.members])) ?_
    refine .bind (.arg (p := segmentWidth) (by simp [attrOf_putAttr_isSome, attrOf, LinearSegmentParameter.members])) ?_
    refine .bind (.arg (p := segmentHeight) (by simp [attrOf_putAttr_isSome, attrOf, LinearSegmentParameter.members])) ?_
    refine .bind (.arg (p := segmentDepth) (by simp [attrOf_putAttr_isSome, attrOf, LinearSegmentParameter.members])) ?_
    exact .cast (.inits (.set' (by simp [attrOf_putAttr_isSome, attrOf, LinearSegmentParameter.members])))
      (by simp [putAttr, LinearSegmentParameter.members, Tree.ints, Tree.objs, Tree.optInt, Tree.optObj, Tree.intOr, Tree.optFloat, Tree.noneOr, IntercomParametersValue.tree])
  exact .new a

theorem Ctor.LinearSegmentParameter.lawful : Ctor.LinearSegmentParameter.Lawful := by
  intro kv kt e ok
  refine .select [("segmentNumber", .int 0), ("segmentModification", .int 0), ("generalSegmentAppearance", .int 0), ("specificSegmentAppearance", .int 0), ("segmentLocation", .none), ("segmentOrientation", .none), ("segmentLength", .float 0x0000000000000000), ("segmentWidth", .float 0x0000000000000000), ("segmentHeight", .float 0x0000000000000000), ("segmentDepth", .float 0x0000000000000000)] (by simp) e ?_
  exact .cast (LinearSegmentParameter.builds ((attrOf "segmentNumber" kv).getD (.sc (.int 0)), (attrOf "segmentNumber" kt).getD (.sc (.int 0))) ((attrOf "segmentModification" kv).getD (.sc (.int 0)), (attrOf "segmentModification" kt).getD (.sc (.int 0))) ((attrOf "generalSegmentAppearance" kv).getD (.sc (.int 0)), (attrOf "generalSegmentAppearance" kt).getD (.sc (.int 0))) ((attrOf "specificSegmentAppearance" kv).getD (.sc (.int 0)), (attrOf "specificSegmentAppearance" kt).getD (.sc (.int 0))) ((attrOf "segmentLocation" kv).getD (.sc (.none)), (attrOf "segmentLocation" kt).getD (.sc (.none))) ((attrOf "segmentOrientation" kv).getD (.sc (.none)), (attrOf "segmentOrientation" kt).getD (.sc (.none))) ((attrOf "segmentLength" kv).getD (.sc (.float 0x0000000000000000)), (attrOf "segmentLength" kt).getD (.sc (.float 0x0000000000000000))) ((attrOf "segmentWidth" kv).getD (.sc (.float 0x0000000000000000)), (attrOf "segmentWidth" kt).getD (.sc (.float 0x0000000000000000))) ((attrOf "segmentHeight" kv).getD (.sc (.float 0x0000000000000000)), (attrOf "segmentHeight" kt).getD (.sc (.float 0x0000000000000000))) ((attrOf "segmentDepth" kv).getD (.sc (.float 0x0000000000000000)), (attrOf "segmentDepth" kt).getD (.sc (.float 0x0000000000000000)))) (by
    simp [Ctor.built, Ctor.LinearSegmentParameter, HeapClass.LinearSegmentParameter, InPlace.value, InPlace.LinearSegmentParameter, Codec.LinearSegmentParameter, LinearSegmentParameter.init, Param.put, Tree.change, value_asIs, value_orFresh, value_copy, Tree.or_list, LinearSegmentParameter.members, Tree.ints, Tree.objs, Tree.optInt, Tree.optObj, Tree.intOr, Tree.optFloat, Tree.noneOr, IntercomParametersValue.tree])

theorem SystemIdentifier.builds (systemType systemName systemMode changeOptions : Val × Tree) :
    Builds (SystemIdentifier.newHeap systemType.1 systemName.1 systemMode.1 changeOptions.1) [systemType, systemName, systemMode, changeOptions]
      (.obj [("systemType", systemType.2), ("systemName", systemName.2), ("systemMode", systemMode.2),
      ("changeOptions", changeOptions.2.or (.obj (ChangeOptions.members ChangeOptions.init)))]) := by
  have a : Fills (fun self => SystemIdentifier.initHeap self systemType.1 systemName.1 systemMode.1 changeOptions.1) [systemType, systemName, systemMode, changeOptions]
      (([("systemType", .sc .absent), ("systemName", .sc .absent), ("systemMode", .sc .absent), ("changeOptions", .sc .absent)] : List (String × Tree)) ++ []) []
      [("systemType", systemType.2), ("systemName", systemName.2), ("systemMode", systemMode.2),
      ("changeOptions", changeOptions.2.or (.obj (ChangeOptions.members ChangeOptions.init)))] := by
    unfold SystemIdentifier.initHeap
    refine .bind (.arg (p := systemType) (by simp [attrOf_putAttr_isSome, attrOf, SystemIdentifier.members])) ?_
    refine .bind (.arg (p := systemName) (by simp [attrOf_putAttr_isSome, attrOf, SystemIdentifier.members])) ?_
    refine .bind (.arg (p := systemMode) (by simp [attrOf_putAttr_isSome, attrOf, SystemIdentifier.members])) ?_
    exact .cast (.or (p := changeOptions) ChangeOptions.makesNew (by simp [attrOf_putAttr_isSome, attrOf, SystemIdentifier.members]))
      (by simp [putAttr, SystemIdentifier.members, Tree.ints, Tree.objs, Tree.optInt, Tree.optObj, Tree.intOr, Tree.optFloat, Tree.noneOr, IntercomParametersValue.tree])
  exact .new a

theorem Ctor.SystemIdentifier.lawful : Ctor.SystemIdentifier.Lawful := by
  intro kv kt e ok
  refine .select [("systemType", .int 0), ("systemName", .int 0), ("systemMode", .int 0), ("changeOptions", .none)] (by simp) e ?_
  exact .cast (SystemIdentifier.builds ((attrOf "systemType" kv).getD (.sc (.int 0)), (attrOf "systemType" kt).getD (.sc (.int 0))) ((attrOf "systemName" kv).getD (.sc (.int 0)), (attrOf "systemName" kt).getD (.sc (.int 0))) ((attrOf "systemMode" kv).getD (.sc (.int 0)), (attrOf "systemMode" kt).getD (.sc (.int 0))) ((attrOf "changeOptions" kv).getD (.sc (.none)), (attrOf "changeOptions" kt).getD (.sc (.none)))) (by
    simp [Ctor.built, Ctor.SystemIdentifier, HeapClass.SystemIdentifier, InPlace.value, InPlace.SystemIdentifier, Codec.SystemIdentifier, SystemIdentifier.init, Param.put, Tree.change, value_asIs, value_orFresh, value_copy, Tree.or_list, SystemIdentifier.members, Tree.ints, Tree.objs, Tree.optInt, Tree.optObj, Tree.intOr, Tree.optFloat, Tree.noneOr, IntercomParametersValue.tree])

theorem TrackJamData.builds (entityID emitterNumber beamNumber : Val × Tree) :
    Builds (TrackJamData.newHeap entityID.1 emitterNumber.1 beamNumber.1) [entityID, emitterNumber, beamNumber]
      (.obj [("entityID", entityID.2.or (.obj (EntityIdentifier.members EntityIdentifier.init))),
      ("emitterNumber", emitterNumber.2), ("beamNumber", beamNumber.2)]) := by
  have a : Fills (fun self => TrackJamData.initHeap self entityID.1 emitterNumber.1 beamNumber.1) [entityID, emitterNumber, beamNumber]
      (([("entityID", .sc .absent), ("emitterNumber", .sc .absent), ("beamNumber", .sc .absent)] : List (String × Tree)) ++ []) []
      [("entityID", entityID.2.or (.obj (EntityIdentifier.members EntityIdentifier.init))),
      ("emitterNumber", emitterNumber.2), ("beamNumber", beamNumber.2)] := by
    unfold TrackJamData.initHeap
    refine .bind (.or (p := entityID) EntityIdentifier.makesNew (by simp [attrOf_putAttr_isSome, attrOf, TrackJamData.members])) ?_
    refine .bind (.arg (p := emitterNumber) (by simp [attrOf_putAttr_isSome, attrOf, TrackJamData.members])) ?_
    exact .cast (.arg (p := beamNumber) (by simp [attrOf_putAttr_isSome, attrOf, TrackJamData.members]))
      (by simp [putAttr, TrackJamData.members, Tree.ints, Tree.objs, Tree.optInt, Tree.optObj, Tree.intOr, Tree.optFloat, Tree.noneOr, IntercomParametersValue.tree])
  exact .new a

theorem Ctor.TrackJamData.lawful : Ctor.TrackJamData.Lawful := by
  intro kv kt e ok
  refine .select [("entityID", .none), ("emitterNumber", .int 0), ("beamNumber", .int 0)] (by simp) e ?_
  exact .cast (TrackJamData.builds ((attrOf "entityID" kv).getD (.sc (.none)), (attrOf "entityID" kt).getD (.sc (.none))) ((attrOf "emitterNumber" kv).getD (.sc (.int 0)), (attrOf "emitterNumber" kt).getD (.sc (.int 0))) ((attrOf "beamNumber" kv).getD (.sc (.int 0)), (attrOf "beamNumber" kt).getD (.sc (.int 0)))) (by
    simp [Ctor.built, Ctor.TrackJamData, HeapClass.TrackJamData, InPlace.value, InPlace.TrackJamData, Codec.TrackJamData, TrackJamData.init, Param.put, Tree.change, value_asIs, value_orFresh, value_copy, Tree.or_list, TrackJamData.members, Tree.ints, Tree.objs, Tree.optInt, Tree.optObj, Tree.intOr, Tree.optFloat, Tree.noneOr, IntercomParametersValue.tree])

theorem AggregateType.builds (aggregateKind domain country category subcategory specificInfo extra : Val × Tree) :
    Builds (AggregateType.newHeap aggregateKind.1 domain.1 country.1 category.1 subcategory.1 specificInfo.1 extra.1) [aggregateKind, domain, country, category, subcategory, specificInfo, extra]
      (.obj [("aggregateKind", aggregateKind.2), ("domain", domain.2), ("country", country.2),
      ("category", category.2), ("subcategory", subcategory.2), ("specificInfo", specificInfo.2),
      ("extra", extra.2)]) := by
  have a : Fills (fun self => AggregateType.initHeap self aggregateKind.1 domain.1 country.1 category.1 subcategory.1 specificInfo.1 extra.1) [aggregateKind, domain, country, category, subcategory, specificInfo, extra]
      (([("aggregateKind", .sc .absent), ("domain", .sc .absent), ("country", .sc .absent), ("category", .sc .absent), ("subcategory", .sc .absent), ("specificInfo", .sc .absent), ("extra", .sc .absent)] : List (String × Tree)) ++ []) []
      [("aggregateKind", aggregateKind.2), ("domain", domain.2), ("country", country.2),
      ("category", category.2), ("subcategory", subcategory.2), ("specificInfo", specificInfo.2),
      ("extra", extra.2)] := by
    unfold AggregateType.initHeap
    refine .bind (.arg (p := aggregateKind) (by simp [attrOf_putAttr_isSome, attrOf, AggregateType.members])) ?_
    refine .bind (.arg (p := domain) (by simp [attrOf_putAttr_isSome, attrOf, AggregateType.members])) ?_
    refine .bind (.arg (p := country) (by simp [attrOf_putAttr_isSome, attrOf, AggregateType.members])) ?_
    refine .bind (.arg (p := category) (by simp [attrOf_putAttr_isSome, attrOf, AggregateType.members])) ?_
    refine .bind (.arg (p := subcategory) (by simp [attrOf_putAttr_isSome, attrOf, AggregateType.members])) ?_
    refine .bind (.arg (p := specificInfo) (by simp [attrOf_putAttr_isSome, attrOf, AggregateType.members])) ?_
    exact .cast (.arg (p := extra) (by simp [attrOf_putAttr_isSome, attrOf, AggregateType.members]))
      (by simp [putAttr, AggregateType.members, Tree.ints, Tree.objs, Tree.optInt, Tree.optObj, Tree.intOr, Tree.optFloat, Tree.noneOr, IntercomParametersValue.tree])
  exact .new a

theorem Ctor.AggregateType.lawful : Ctor.AggregateType.Lawful := by
  intro kv kt e ok
  refine .select [("aggregateKind", .int 0), ("domain", .int 0), ("country", .int 0), ("category", .int 0), ("subcategory", .int 0), ("specificInfo", .int 0), ("extra", .int 0)] (by simp) e ?_
  exact .cast (AggregateType.builds ((attrOf "aggregateKind" kv).getD (.sc (.int 0)), (attrOf "aggregateKind" kt).getD (.sc (.int 0))) ((attrOf "domain" kv).getD (.sc (.int 0)), (attrOf "domain" kt).getD (.sc (.int 0))) ((attrOf "country" kv).getD (.sc (.int 0)), (attrOf "country" kt).getD (.sc (.int 0))) ((attrOf "category" kv).getD (.sc (.int 0)), (attrOf "category" kt).getD (.sc (.int 0))) ((attrOf "subcategory" kv).getD (.sc (.int 0)), (attrOf "subcategory" kt).getD (.sc (.int 0))) ((attrOf "specificInfo" kv).getD (.sc (.int 0)), (attrOf "specificInfo" kt).getD (.sc (.int 0))) ((attrOf "extra" kv).getD (.sc (.int 0)), (attrOf "extra" kt).getD (.sc (.int 0)))) (by
    simp [Ctor.built, Ctor.AggregateType, HeapClass.AggregateType, InPlace.value, InPlace.AggregateType, Codec.AggregateType, AggregateType.init, Param.put, Tree.change, value_asIs, value_orFresh, value_copy, Tree.or_list, AggregateType.members, Tree.ints, Tree.objs, Tree.optInt, Tree.optObj, Tree.intOr, Tree.optFloat, Tree.noneOr, IntercomParametersValue.tree])

theorem SimulationIdentifier.builds (simulationAddress referenceNumber : Val × Tree) :
    Builds (SimulationIdentifier.newHeap simulationAddress.1 referenceNumber.1) [simulationAddress, referenceNumber]
      (.obj [("simulationAddress", simulationAddress.2.or (.obj (SimulationAddress.members SimulationAddress.init))),
      ("referenceNumber", referenceNumber.2)]) := by
  have a : Fills (fun self => SimulationIdentifier.initHeap self simulationAddress.1 referenceNumber.1) [simulationAddress, referenceNumber]
      (([("simulationAddress", .sc .absent), ("referenceNumber", .sc .absent)] : List (String × Tree)) ++ []) []
      [("simulationAddress", simulationAddress.2.or (.obj (SimulationAddress.members SimulationAddress.init))),
      ("referenceNumber", referenceNumber.2)] := by
    unfold SimulationIdentifier.initHeap
    refine .bind (.or (p := simulationAddress) SimulationAddress.makesNew (by simp [attrOf_putAttr_isSome, attrOf, SimulationIdentifier.members])) ?_
    exact .cast (.arg (p := referenceNumber) (by simp [attrOf_putAttr_isSome, attrOf, SimulationIdentifier.members]))
      (by simp [putAttr, SimulationIdentifier.members, Tree.ints, Tree.objs, Tree.optInt, Tree.optObj, Tree.intOr, Tree.optFloat, Tree.noneOr, IntercomParametersValue.tree])
  exact .new a

theorem Ctor.SimulationIdentifier.lawful : Ctor.SimulationIdentifier.Lawful := by
  intro kv kt e ok
  refine .select [("simulationAddress", .none), ("referenceNumber", .int 0)] (by simp) e ?_
  exact .cast (SimulationIdentifier.builds ((attrOf "simulationAddress" kv).getD (.sc (.none)), (attrOf "simulationAddress" kt).getD (.sc (.none))) ((attrOf "referenceNumber" kv).getD (.sc (.int 0)), (attrOf "referenceNumber" kt).getD (.sc (.int 0)))) (by
    simp [Ctor.built, Ctor.SimulationIdentifier, HeapClass.SimulationIdentifier, InPlace.value, InPlace.SimulationIdentifier, Codec.SimulationIdentifier, SimulationIdentifier.init, Param.put, Tree.change, value_asIs, value_orFresh, value_copy, Tree.or_list, SimulationIdentifier.members, Tree.ints, Tree.objs, Tree.optInt, Tree.optObj, Tree.intOr, Tree.optFloat, Tree.noneOr, IntercomParametersValue.tree])

theorem PduHeader.builds (protocolVersion exerciseID pduType protocolFamily timestamp pduLength pduStatus : Val × Tree) :
    Builds (PduHeader.newHeap protocolVersion.1 exerciseID.1 pduType.1 protocolFamily.1 timestamp.1 pduLength.1 pduStatus.1) [protocolVersion, exerciseID, pduType, protocolFamily, timestamp, pduLength, pduStatus]
      (.obj [("protocolVersion", protocolVersion.2), ("exerciseID", exerciseID.2), ("pduType", pduType.2),
      ("protocolFamily", protocolFamily.2), ("timestamp", timestamp.2), ("pduLength", pduLength.2),
      ("pduStatus", pduStatus.2), ("padding", .sc (.int 0))]) := by
  have a : Fills (fun self => PduHeader.initHeap self protocolVersion.1 exerciseID.1 pduType.1 protocolFamily.1 timestamp.1 pduLength.1 pduStatus.1) [protocolVersion, exerciseID, pduType, protocolFamily, timestamp, pduLength, pduStatus]
      (([("protocolVersion", .sc .absent), ("exerciseID", .sc .absent), ("pduType", .sc .absent), ("protocolFamily", .sc .absent), ("timestamp", .sc .absent), ("pduLength", .sc .absent), ("pduStatus", .sc .absent), ("padding", .sc .absent)] : List (String × Tree)) ++ []) []
      [("protocolVersion", protocolVersion.2), ("exerciseID", exerciseID.2), ("pduType", pduType.2),
      ("protocolFamily", protocolFamily.2), ("timestamp", timestamp.2), ("pduLength", pduLength.2),
      ("pduStatus", pduStatus.2), ("padding", .sc (.int 0))] := by
    unfold PduHeader.initHeap
    refine .bind (.arg (p := protocolVersion) (by simp [attrOf_putAttr_isSome, attrOf, PduHeader.members])) ?_
    refine .bind (.arg (p := exerciseID) (by simp [attrOf_putAttr_isSome, attrOf, PduHeader.members])) ?_
    refine .bind (.arg (p := pduType) (by simp [attrOf_putAttr_isSome, attrOf, PduHeader.members])) ?_
    refine .bind (.arg (p := protocolFamily) (by simp [attrOf_putAttr_isSome, attrOf, PduHeader.members])) ?_
    refine .bind (.arg (p := timestamp) (by simp [attrOf_putAttr_isSome, attrOf, PduHeader.members])) ?_
    refine .bind (.arg (p := pduLength) (by simp [attrOf_putAttr_isSome, attrOf, PduHeader.members])) ?_
    refine .bind (.arg (p := pduStatus) (by simp [attrOf_putAttr_isSome, attrOf, PduHeader.members])) ?_
    exact .cast (.inits (.set' (by simp [attrOf_putAttr_isSome, attrOf, PduHeader.members])))
      (by simp [putAttr, PduHeader.members, Tree.ints, Tree.objs, Tree.optInt, Tree.optObj, Tree.intOr, Tree.optFloat, Tree.noneOr, IntercomParametersValue.tree])
  exact .new a

theorem Ctor.PduHeader.lawful : Ctor.PduHeader.Lawful := by
  intro kv kt e ok
  refine .select [("protocolVersion", .int 7), ("exerciseID", .int 0), ("pduType", .int 0), ("protocolFamily", .int 0), ("timestamp", .int 0), ("pduLength", .int 0), ("pduStatus", .int 0)] (by simp) e ?_
  exact .cast (PduHeader.builds ((attrOf "protocolVersion" kv).getD (.sc (.int 7)), (attrOf "protocolVersion" kt).getD (.sc (.int 7))) ((attrOf "exerciseID" kv).getD (.sc (.int 0)), (attrOf "exerciseID" kt).getD (.sc (.int 0))) ((attrOf "pduType" kv).getD (.sc (.int 0)), (attrOf "pduType" kt).getD (.sc (.int 0))) ((attrOf "protocolFamily" kv).getD (.sc (.int 0)), (attrOf "protocolFamily" kt).getD (.sc (.int 0))) ((attrOf "timestamp" kv).getD (.sc (.int 0)), (attrOf "timestamp" kt).getD (.sc (.int 0))) ((attrOf "pduLength" kv).getD (.sc (.int 0)), (attrOf "pduLength" kt).getD (.sc (.int 0))) ((attrOf "pduStatus" kv).getD (.sc (.int 0)), (attrOf "pduStatus" kt).getD (.sc (.int 0)))) (by
    simp [Ctor.built, Ctor.PduHeader, HeapClass.PduHeader, InPlace.value, InPlace.PduHeader, Codec.PduHeader, PduHeader.init, Param.put, Tree.change, value_asIs, value_orFresh, value_copy, Tree.or_list, PduHeader.members, Tree.ints, Tree.objs, Tree.optInt, Tree.optObj, Tree.intOr, Tree.optFloat, Tree.noneOr, IntercomParametersValue.tree])

theorem SimulationManagementPduHeader.builds (pduHeader originatingID receivingID : Val × Tree) :
    Builds (SimulationManagementPduHeader.newHeap pduHeader.1 originatingID.1 receivingID.1) [pduHeader, originatingID, receivingID]
      (.obj [("pduHeader", pduHeader.2.or (.obj (PduHeader.members PduHeader.init))),
      ("originatingID", originatingID.2.or (.obj (SimulationIdentifier.members SimulationIdentifier.init))),
      ("receivingID", receivingID.2.or (.obj (SimulationIdentifier.members SimulationIdentifier.init)))]) := by
  have a : Fills (fun self => SimulationManagementPduHeader.initHeap self pduHeader.1 originatingID.1 receivingID.1) [pduHeader, originatingID, receivingID]
      (([("pduHeader", .sc .absent), ("originatingID", .sc .absent), ("receivingID", .sc .absent)] : List (String × Tree)) ++ []) []
      [("pduHeader", pduHeader.2.or (.obj (PduHeader.members PduHeader.init))),
      ("originatingID", originatingID.2.or (.obj (SimulationIdentifier.members SimulationIdentifier.init))),
      ("receivingID", receivingID.2.or (.obj (SimulationIdentifier.members SimulationIdentifier.init)))] := by
    unfold SimulationManagementPduHeader.initHeap
    refine .bind (.or (p := pduHeader) PduHeader.makesNew (by simp [attrOf_putAttr_isSome, attrOf, SimulationManagementPduHeader.members])) ?_
    refine .bind (.or (p := originatingID) SimulationIdentifier.makesNew (by simp [attrOf_putAttr_isSome, attrOf, SimulationManagementPduHeader.members])) ?_
    exact .cast (.or (p := receivingID) SimulationIdentifier.makesNew (by simp [attrOf_putAttr_isSome, attrOf, SimulationManagementPduHeader.members]))
      (by simp [putAttr, SimulationManagementPduHeader.members, Tree.ints, Tree.objs, Tree.optInt, Tree.optObj, Tree.intOr, Tree.optFloat, Tree.noneOr, IntercomParametersValue.tree])
  exact .new a

theorem Ctor.SimulationManagementPduHeader.lawful : Ctor.SimulationManagementPduHeader.Lawful := by
  intro kv kt e ok
  refine .select [("pduHeader", .none), ("originatingID", .none), ("receivingID", .none)] (by simp) e ?_
  exact .cast (SimulationManagementPduHeader.builds ((attrOf "pduHeader" kv).getD (.sc (.none)), (attrOf "pduHeader" kt).getD (.sc (.none))) ((attrOf "originatingID" kv).getD (.sc (.none)), (attrOf "originatingID" kt).getD (.sc (.none))) ((attrOf "receivingID" kv).getD (.sc (.none)), (attrOf "receivingID" kt).getD (.sc (.none)))) (by
    simp [Ctor.built, Ctor.SimulationManagementPduHeader, HeapClass.SimulationManagementPduHeader, InPlace.value, InPlace.SimulationManagementPduHeader, Codec.SimulationManagementPduHeader, SimulationManagementPduHeader.init, Param.put, Tree.change, value_asIs, value_orFresh, value_copy, Tree.or_list, SimulationManagementPduHeader.members, Tree.ints, Tree.objs, Tree.optInt, Tree.optObj, Tree.intOr, Tree.optFloat, Tree.noneOr, IntercomParametersValue.tree])

theorem BeamData.builds (beamAzimuthCenter beamAzimuthSweep beamElevationCenter beamElevationSweep beamSweepSync : Val × Tree) :
    Builds (BeamData.newHeap beamAzimuthCenter.1 beamAzimuthSweep.1 beamElevationCenter.1 beamElevationSweep.1 beamSweepSync.1) [beamAzimuthCenter, beamAzimuthSweep, beamElevationCenter, beamElevationSweep, beamSweepSync]
      (.obj [("beamAzimuthCenter", beamAzimuthCenter.2), ("beamAzimuthSweep", beamAzimuthSweep.2),
      ("beamElevationCenter", beamElevationCenter.2), ("beamElevationSweep", beamElevationSweep.2),
      ("beamSweepSync", beamSweepSync.2)]) := by
  have a : Fills (fun self => BeamData.initHeap self beamAzimuthCenter.1 beamAzimuthSweep.1 beamElevationCenter.1 beamElevationSweep.1 beamSweepSync.1) [beamAzimuthCenter, beamAzimuthSweep, beamElevationCenter, beamElevationSweep, beamSweepSync]
      (([("beamAzimuthCenter", .sc .absent), ("beamAzimuthSweep", .sc .absent), ("beamElevationCenter", .sc .absent), ("beamElevationSweep", .sc .absent), ("beamSweepSync", .sc .absent)] : List (String × Tree)) ++ []) []
      [("beamAzimuthCenter", beamAzimuthCenter.2), ("beamAzimuthSweep", beamAzimuthSweep.2),
      ("beamElevationCenter", beamElevationCenter.2), ("beamElevationSweep", beamElevationSweep.2),
      ("beamSweepSync", beamSweepSync.2)] := by
    unfold BeamData.initHeap
    refine .bind (.arg (p := beamAzimuthCenter) (by simp [attrOf_putAttr_isSome, attrOf, BeamData.members])) ?_
    refine .bind (.arg (p := beamAzimuthSweep) (by simp [attrOf_putAttr_isSome, attrOf, BeamData.members])) ?_
    refine .bind (.arg (p := beamElevationCenter) (by simp [attrOf_putAttr_isSome, attrOf, BeamData.members])) ?_
    refine .bind (.arg (p := beamElevationSweep) (by simp [attrOf_putAttr_isSome, attrOf, BeamData.members])) ?_
    exact .cast (.arg (p := beamSweepSync) (by simp [attrOf_putAttr_isSome, attrOf, BeamData.members]))
      (by simp [putAttr, BeamData.members, Tree.ints, Tree.objs, Tree.optInt, Tree.optObj, Tree.intOr, Tree.optFloat, Tree.noneOr, IntercomParametersValue.tree])
  exact .new a

theorem Ctor.BeamData.lawful : Ctor.BeamData.Lawful := by
  intro kv kt e ok
  refine .select [("beamAzimuthCenter", .float 0x0000000000000000), ("beamAzimuthSweep", .float 0x0000000000000000), ("beamElevationCenter", .float 0x0000000000000000), ("beamElevationSweep", .float 0x0000000000000000), ("beamSweepSync", .float 0x0000000000000000)] (by simp) e ?_
  exact .cast (BeamData.builds ((attrOf "beamAzimuthCenter" kv).getD (.sc (.float 0x0000000000000000)), (attrOf "beamAzimuthCenter" kt).getD (.sc (.float 0x0000000000000000))) ((attrOf "beamAzimuthSweep" kv).getD (.sc (.float 0x0000000000000000)), (attrOf "beamAzimuthSweep" kt).getD (.sc (.float 0x0000000000000000))) ((attrOf "beamElevationCenter" kv).getD (.sc (.float 0x0000000000000000)), (attrOf "beamElevationCenter" kt).getD (.sc (.float 0x0000000000000000))) ((attrOf "beamElevationSweep" kv).getD (.sc (.float 0x0000000000000000)), (attrOf "beamElevationSweep" kt).getD (.sc (.float 0x0000000000000000))) ((attrOf "beamSweepSync" kv).getD (.sc (.float 0x0000000000000000)), (attrOf "beamSweepSync" kt).getD (.sc (.float 0x0000000000000000)))) (by
    simp [Ctor.built, Ctor.BeamData, HeapClass.BeamData, InPlace.value, InPlace.BeamData, Codec.BeamData, BeamData.init, Param.put, Tree.change, value_asIs, value_orFresh, value_copy, Tree.or_list, BeamData.members, Tree.ints, Tree.objs, Tree.optInt, Tree.optObj, Tree.intOr, Tree.optFloat, Tree.noneOr, IntercomParametersValue.tree])

theorem EngineFuel.builds (fuelQuantity fuelMeasurementUnits fuelType fuelLocation : Val × Tree) :
    Builds (EngineFuel.newHeap fuelQuantity.1 fuelMeasurementUnits.1 fuelType.1 fuelLocation.1) [fuelQuantity, fuelMeasurementUnits, fuelType, fuelLocation]
      (.obj [("fuelQuantity", .sc (.int 0)), ("fuelMeasurementUnits", .sc (.int 0)), ("fuelType", .sc (.int 0)),
      ("fuelLocation", .sc (.int 0)), ("padding", .sc (.int 0))]) := by
  have a : Fills (fun self => EngineFuel.initHeap self fuelQuantity.1 fuelMeasurementUnits.1 fuelType.1 fuelLocation.1) [fuelQuantity, fuelMeasurementUnits, fuelType, fuelLocation]
      (([("fuelQuantity", .sc .absent), ("fuelMeasurementUnits", .sc .absent), ("fuelType", .sc .absent), ("fuelLocation", .sc .absent), ("padding", .sc .absent)] : List (String × Tree)) ++ []) [fuelQuantity, fuelMeasurementUnits, fuelType, fuelLocation]
      [("fuelQuantity", .sc (.int 0)), ("fuelMeasurementUnits", .sc (.int 0)), ("fuelType", .sc (.int 0)),
      ("fuelLocation", .sc (.int 0)), ("padding", .sc (.int 0))] := by
    unfold EngineFuel.initHeap
    refine .bind (.inits (.set' (by simp [attrOf_putAttr_isSome, attrOf, EngineFuel.members]))) ?_
    refine .bind (.inits (.set' (by simp [attrOf_putAttr_isSome, attrOf, EngineFuel.members]))) ?_
    refine .bind (.inits (.set' (by simp [attrOf_putAttr_isSome, attrOf, EngineFuel.members]))) ?_
    refine .bind (.inits (.set' (by simp [attrOf_putAttr_isSome, attrOf, EngineFuel.members]))) ?_
    exact .cast (.inits (.set' (by simp [attrOf_putAttr_isSome, attrOf, EngineFuel.members])))
      (by simp [putAttr, EngineFuel.members, Tree.ints, Tree.objs, Tree.optInt, Tree.optObj, Tree.intOr, Tree.optFloat, Tree.noneOr, IntercomParametersValue.tree])
  exact .new a

theorem Ctor.EngineFuel.lawful : Ctor.EngineFuel.Lawful := by
  intro kv kt e ok
  refine .select [("fuelQuantity", .int 0), ("fuelMeasurementUnits", .int 0), ("fuelType", .int 0), ("fuelLocation", .int 0)] (by simp) e ?_
  exact .cast (EngineFuel.builds ((attrOf "fuelQuantity" kv).getD (.sc (.int 0)), (attrOf "fuelQuantity" kt).getD (.sc (.int 0))) ((attrOf "fuelMeasurementUnits" kv).getD (.sc (.int 0)), (attrOf "fuelMeasurementUnits" kt).getD (.sc (.int 0))) ((attrOf "fuelType" kv).getD (.sc (.int 0)), (attrOf "fuelType" kt).getD (.sc (.int 0))) ((attrOf "fuelLocation" kv).getD (.sc (.int 0)), (attrOf "fuelLocation" kt).getD (.sc (.int 0)))) (by
    simp [Ctor.built, Ctor.EngineFuel, HeapClass.EngineFuel, InPlace.value, InPlace.EngineFuel, Codec.EngineFuel, EngineFuel.init, Param.put, Tree.change, value_asIs, value_orFresh, value_copy, Tree.or_list, EngineFuel.members, Tree.ints, Tree.objs, Tree.optInt, Tree.optObj, Tree.intOr, Tree.optFloat, Tree.noneOr, IntercomParametersValue.tree])

theorem IOEffect.builds (ioStatus ioLinkType ioEffect ioEffectDutyCycle ioEffectDuration ioProcess : Val × Tree) :
    Builds (IOEffect.newHeap ioStatus.1 ioLinkType.1 ioEffect.1 ioEffectDutyCycle.1 ioEffectDuration.1 ioProcess.1) [ioStatus, ioLinkType, ioEffect, ioEffectDutyCycle, ioEffectDuration, ioProcess]
      (.obj [("recordType", .sc (.int 5500)), ("recordLength", .sc (.int 16)), ("ioStatus", ioStatus.2),
      ("ioLinkType", ioLinkType.2), ("ioEffect", ioEffect.2), ("ioEffectDutyCycle", ioEffectDutyCycle.2),
      ("ioEffectDuration", ioEffectDuration.2), ("ioProcess", ioProcess.2), ("padding", .sc (.int 0))]) := by
  have a : Fills (fun self => IOEffect.initHeap self ioStatus.1 ioLinkType.1 ioEffect.1 ioEffectDutyCycle.1 ioEffectDuration.1 ioProcess.1) [ioStatus, ioLinkType, ioEffect, ioEffectDutyCycle, ioEffectDuration, ioProcess]
      (([("recordType", .sc (.int 5500)), ("recordLength", .sc (.int 16)), ("ioStatus", .sc .absent), ("ioLinkType", .sc .absent), ("ioEffect", .sc .absent), ("ioEffectDutyCycle", .sc .absent), ("ioEffectDuration", .sc .absent), ("ioProcess", .sc .absent), ("padding", .sc .absent)] : List (String × Tree)) ++ []) []
      [("recordType", .sc (.int 5500)), ("recordLength", .sc (.int 16)), ("ioStatus", ioStatus.2),
      ("ioLinkType", ioLinkType.2), ("ioEffect", ioEffect.2), ("ioEffectDutyCycle", ioEffectDutyCycle.2),
      ("ioEffectDuration", ioEffectDuration.2), ("ioProcess", ioProcess.2), ("padding", .sc (.int 0))] := by
    unfold IOEffect.initHeap
    refine .bind (.arg (p := ioStatus) (by simp [attrOf_putAttr_isSome, attrOf, IOEffect.members])) ?_
    refine .bind (.arg (p := ioLinkType) (by simp [attrOf_putAttr_isSome, attrOf, IOEffect.members])) ?_
    refine .bind (.arg (p := ioEffect) (by simp [attrOf_putAttr_isSome, attrOf, IOEffect.members])) ?_
    refine .bind (.arg (p := ioEffectDutyCycle) (by simp [attrOf_putAttr_isSome, attrOf, IOEffect.members])) ?_
    refine .bind (.arg (p := ioEffectDuration) (by simp [attrOf_putAttr_isSome, attrOf, IOEffect.members])) ?_
    refine .bind (.arg (p := ioProcess) (by simp [attrOf_putAttr_isSome, attrOf, IOEffect.members])) ?_
    exact .cast (.inits (.set' (by simp [attrOf_putAttr_isSome, attrOf, IOEffect.members])))
      (by simp [putAttr, IOEffect.members, Tree.ints, Tree.objs, Tree.optInt, Tree.optObj, Tree.intOr, Tree.optFloat, Tree.noneOr, IntercomParametersValue.tree])
  exact .new a

theorem Ctor.IOEffect.lawful : Ctor.IOEffect.Lawful := by
  intro kv kt e ok
  refine .select [("ioStatus", .int 0), ("ioLinkType", .int 0), ("ioEffect", .int 0), ("ioEffectDutyCycle", .int 0), ("ioEffectDuration", .int 0), ("ioProcess", .int 0)] (by simp) e ?_
  exact .cast (IOEffect.builds ((attrOf "ioStatus" kv).getD (.sc (.int 0)), (attrOf "ioStatus" kt).getD (.sc (.int 0))) ((attrOf "ioLinkType" kv).getD (.sc (.int 0)), (attrOf "ioLinkType" kt).getD (.sc (.int 0))) ((attrOf "ioEffect" kv).getD (.sc (.int 0)), (attrOf "ioEffect" kt).getD (.sc (.int 0))) ((attrOf "ioEffectDutyCycle" kv).getD (.sc (.int 0)), (attrOf "ioEffectDutyCycle" kt).getD (.sc (.int 0))) ((attrOf "ioEffectDuration" kv).getD (.sc (.int 0)), (attrOf "ioEffectDuration" kt).getD (.sc (.int 0))) ((attrOf "ioProcess" kv).getD (.sc (.int 0)), (attrOf "ioProcess" kt).getD (.sc (.int 0)))) (by
    simp [Ctor.built, Ctor.IOEffect, HeapClass.IOEffect, InPlace.value, InPlace.IOEffect, Codec.IOEffect, IOEffect.init, Param.put, Tree.change, value_asIs, value_orFresh, value_copy, Tree.or_list, IOEffect.members, Tree.ints, Tree.objs, Tree.optInt, Tree.optObj, Tree.intOr, Tree.optFloat, Tree.noneOr, IntercomParametersValue.tree])

theorem GridAxisDescriptorVariable.builds (domainInitialXi domainFinalXi domainPointsXi interleafFactor axisType numberOfPointsOnXiAxis initialIndex coordinateScaleXi coordinateOffsetXi xiValues : Val × Tree) :
    Builds (GridAxisDescriptorVariable.newHeap domainInitialXi.1 domainFinalXi.1 domainPointsXi.1 interleafFactor.1 axisType.1 numberOfPointsOnXiAxis.1 initialIndex.1 coordinateScaleXi.1 coordinateOffsetXi.1 xiValues.1) [domainInitialXi, domainFinalXi, domainPointsXi, interleafFactor, axisType, numberOfPointsOnXiAxis, initialIndex, coordinateScaleXi, coordinateOffsetXi, xiValues]
      (.obj [("domainInitialXi", domainInitialXi.2), ("domainFinalXi", domainFinalXi.2),
      ("domainPointsXi", domainPointsXi.2), ("interleafFactor", interleafFactor.2), ("axisType", axisType.2),
      ("numberOfPointsOnXiAxis", numberOfPointsOnXiAxis.2), ("initialIndex", initialIndex.2),
      ("coordinateScaleXi", coordinateScaleXi.2), ("coordinateOffsetXi", coordinateOffsetXi.2),
      ("xiValues", xiValues.2.or (.list []))]) := by
  have a : Fills (fun self => GridAxisDescriptorVariable.initHeap self domainInitialXi.1 domainFinalXi.1 domainPointsXi.1 interleafFactor.1 axisType.1 numberOfPointsOnXiAxis.1 initialIndex.1 coordinateScaleXi.1 coordinateOffsetXi.1 xiValues.1) [domainInitialXi, domainFinalXi, domainPointsXi, interleafFactor, axisType, numberOfPointsOnXiAxis, initialIndex, coordinateScaleXi, coordinateOffsetXi, xiValues]
      (([("domainInitialXi", .sc .absent), ("domainFinalXi", .sc .absent), ("domainPointsXi", .sc .absent), ("interleafFactor", .sc .absent), ("axisType", .sc .absent), ("numberOfPointsOnXiAxis", .sc .absent), ("initialIndex", .sc .absent), ("coordinateScaleXi", .sc .absent), ("coordinateOffsetXi", .sc .absent), ("xiValues", .sc .absent)] : List (String × Tree)) ++ []) []
      [("domainInitialXi", domainInitialXi.2), ("domainFinalXi", domainFinalXi.2),
      ("domainPointsXi", domainPointsXi.2), ("interleafFactor", interleafFactor.2), ("axisType", axisType.2),
      ("numberOfPointsOnXiAxis", numberOfPointsOnXiAxis.2), ("initialIndex", initialIndex.2),
      ("coordinateScaleXi", coordinateScaleXi.2), ("coordinateOffsetXi", coordinateOffsetXi.2),
      ("xiValues", xiValues.2.or (.list []))] := by
    unfold GridAxisDescriptorVariable.initHeap
    refine .bind (.arg (p := domainInitialXi) (by simp [attrOf_putAttr_isSome, attrOf, GridAxisDescriptorVariable.members])) ?_
    refine .bind (.arg (p := domainFinalXi) (by simp [attrOf_putAttr_isSome, attrOf, GridAxisDescriptorVariable.members])) ?_
    refine .bind (.arg (p := domainPointsXi) (by simp [attrOf_putAttr_isSome, attrOf, GridAxisDescriptorVariable.members])) ?_
    refine .bind (.arg (p := interleafFactor) (by simp [attrOf_putAttr_isSome, attrOf, GridAxisDescriptorVariable.members])) ?_
    refine .bind (.arg (p := axisType) (by simp [attrOf_putAttr_isSome, attrOf, GridAxisDescriptorVariable.members])) ?_
    refine .bind (.arg (p := numberOfPointsOnXiAxis) (by simp [attrOf_putAttr_isSome, attrOf, GridAxisDescriptorVariable.members])) ?_
    refine .bind (.arg (p := initialIndex) (by simp [attrOf_putAttr_isSome, attrOf, GridAxisDescriptorVariable.members])) ?_
    refine .bind (.arg (p := coordinateScaleXi) (by simp [attrOf_putAttr_isSome, attrOf, GridAxisDescriptorVariable.members])) ?_
    refine .bind (.arg (p := coordinateOffsetXi) (by simp [attrOf_putAttr_isSome, attrOf, GridAxisDescriptorVariable.members])) ?_
    exact .cast (.or (p := xiValues) .empty (by simp [attrOf_putAttr_isSome, attrOf, GridAxisDescriptorVariable.members]))
      (by simp [putAttr, GridAxisDescriptorVariable.members, Tree.ints, Tree.objs, Tree.optInt, Tree.optObj, Tree.intOr, Tree.optFloat, Tree.noneOr, IntercomParametersValue.tree])
  exact .new a

theorem Ctor.GridAxisDescriptorVariable.lawful : Ctor.GridAxisDescriptorVariable.Lawful := by
  intro kv kt e ok
  refine .select [("domainInitialXi", .float 0x0000000000000000), ("domainFinalXi", .float 0x0000000000000000), ("domainPointsXi", .int 0), ("interleafFactor", .int 0), ("axisType", .int 0), ("numberOfPointsOnXiAxis", .int 0), ("initialIndex", .int 0), ("coordinateScaleXi", .float 0x0000000000000000), ("coordinateOffsetXi", .float 0x0000000000000000), ("xiValues", .none)] (by simp) e ?_
  exact .cast (GridAxisDescriptorVariable.builds ((attrOf "domainInitialXi" kv).getD (.sc (.float 0x0000000000000000)), (attrOf "domainInitialXi" kt).getD (.sc (.float 0x0000000000000000))) ((attrOf "domainFinalXi" kv).getD (.sc (.float 0x0000000000000000)), (attrOf "domainFinalXi" kt).getD (.sc (.float 0x0000000000000000))) ((attrOf "domainPointsXi" kv).getD (.sc (.int 0)), (attrOf "domainPointsXi" kt).getD (.sc (.int 0))) ((attrOf "interleafFactor" kv).getD (.sc (.int 0)), (attrOf "interleafFactor" kt).getD (.sc (.int 0))) ((attrOf "axisType" kv).getD (.sc (.int 0)), (attrOf "axisType" kt).getD (.sc (.int 0))) ((attrOf "numberOfPointsOnXiAxis" kv).getD (.sc (.int 0)), (attrOf "numberOfPointsOnXiAxis" kt).getD (.sc (.int 0))) ((attrOf "initialIndex" kv).getD (.sc (.int 0)), (attrOf "initialIndex" kt).getD (.sc (.int 0))) ((attrOf "coordinateScaleXi" kv).getD (.sc (.float 0x0000000000000000)), (attrOf "coordinateScaleXi" kt).getD (.sc (.float 0x0000000000000000))) ((attrOf "coordinateOffsetXi" kv).getD (.sc (.float 0x0000000000000000)), (attrOf "coordinateOffsetXi" kt).getD (.sc (.float 0x0000000000000000))) ((attrOf "xiValues" kv).getD (.sc (.none)), (attrOf "xiValues" kt).getD (.sc (.none)))) (by
    simp [Ctor.built, Ctor.GridAxisDescriptorVariable, HeapClass.GridAxisDescriptorVariable, InPlace.value, InPlace.GridAxisDescriptorVariable, Codec.GridAxisDescriptorVariable, GridAxisDescriptorVariable.init, Param.put, Tree.change, value_asIs, value_orFresh, value_copy, Tree.or_list, GridAxisDescriptorVariable.members, Tree.ints, Tree.objs, Tree.optInt, Tree.optObj, Tree.intOr, Tree.optFloat, Tree.noneOr, IntercomParametersValue.tree])

theorem SupplyQuantity.builds (supplyType quantity : Val × Tree) :
    Builds (SupplyQuantity.newHeap supplyType.1 quantity.1) [supplyType, quantity]
      (.obj [("supplyType", supplyType.2.or (.obj (EntityType.members EntityType.init))), ("quantity", quantity.2)]) := by
  have a : Fills (fun self => SupplyQuantity.initHeap self supplyType.1 quantity.1) [supplyType, quantity]
      (([("supplyType", .sc .absent), ("quantity", .sc .absent)] : List (String × Tree)) ++ []) []
      [("supplyType", supplyType.2.or (.obj (EntityType.members EntityType.init))), ("quantity", quantity.2)] := by
    unfold SupplyQuantity.initHeap
    refine .bind (.or (p := supplyType) EntityType.makesNew (by simp [attrOf_putAttr_isSome, attrOf, SupplyQuantity.members])) ?_
    exact .cast (.arg (p := quantity) (by simp [attrOf_putAttr_isSome, attrOf, SupplyQuantity.members]))
      (by simp [putAttr, SupplyQuantity.members, Tree.ints, Tree.objs, Tree.optInt, Tree.optObj, Tree.intOr, Tree.optFloat, Tree.noneOr, IntercomParametersValue.tree])
  exact .new a

theorem Ctor.SupplyQuantity.lawful : Ctor.SupplyQuantity.Lawful := by
  intro kv kt e ok
  refine .select [("supplyType", .none), ("quantity", .float 0x0000000000000000)] (by simp) e ?_
  exact .cast (SupplyQuantity.builds ((attrOf "supplyType" kv).getD (.sc (.none)), (attrOf "supplyType" kt).getD (.sc (.none))) ((attrOf "quantity" kv).getD (.sc (.float 0x0000000000000000)), (attrOf "quantity" kt).getD (.sc (.float 0x0000000000000000)))) (by
    simp [Ctor.built, Ctor.SupplyQuantity, HeapClass.SupplyQuantity, InPlace.value, InPlace.SupplyQuantity, Codec.SupplyQuantity, SupplyQuantity.init, Param.put, Tree.change, value_asIs, value_orFresh, value_copy, Tree.or_list, SupplyQuantity.members, Tree.ints, Tree.objs, Tree.optInt, Tree.optObj, Tree.intOr, Tree.optFloat, Tree.noneOr, IntercomParametersValue.tree])

theorem SilentEntitySystem.builds (numberOfEntities entityType appearanceRecordList : Val × Tree) :
    Builds (SilentEntitySystem.newHeap numberOfEntities.1 entityType.1 appearanceRecordList.1) [numberOfEntities, entityType, appearanceRecordList]
      (.obj [("numberOfEntities", numberOfEntities.2),
      ("entityType", entityType.2.or (.obj (EntityType.members EntityType.init))),
      ("appearanceRecordList", appearanceRecordList.2.or (.list []))]) := by
  have a : Fills (fun self => SilentEntitySystem.initHeap self numberOfEntities.1 entityType.1 appearanceRecordList.1) [numberOfEntities, entityType, appearanceRecordList]
      (([("numberOfEntities", .sc .absent), ("entityType", .sc .absent), ("appearanceRecordList", .sc .absent)] : List (String × Tree)) ++ []) []
      [("numberOfEntities", numberOfEntities.2),
      ("entityType", entityType.2.or (.obj (EntityType.members EntityType.init))),
      ("appearanceRecordList", appearanceRecordList.2.or (.list []))] := by
    unfold SilentEntitySystem.initHeap
    refine .bind (.arg (p := numberOfEntities) (by simp [attrOf_putAttr_isSome, attrOf, SilentEntitySystem.members])) ?_
    refine .bind (.or (p := entityType) EntityType.makesNew (by simp [attrOf_putAttr_isSome, attrOf, SilentEntitySystem.members])) ?_
    exact .cast (.or (p := appearanceRecordList) .empty (by simp [attrOf_putAttr_isSome, attrOf, SilentEntitySystem.members]))
      (by simp [putAttr, SilentEntitySystem.members, Tree.ints, Tree.objs, Tree.optInt, Tree.optObj, Tree.intOr, Tree.optFloat, Tree.noneOr, IntercomParametersValue.tree])
  exact .new a

theorem Ctor.SilentEntitySystem.lawful : Ctor.SilentEntitySystem.Lawful := by
  intro kv kt e ok
  refine .select [("numberOfEntities", .int 0), ("entityType", .none), ("appearanceRecordList", .none)] (by simp) e ?_
  exact .cast (SilentEntitySystem.builds ((attrOf "numberOfEntities" kv).getD (.sc (.int 0)), (attrOf "numberOfEntities" kt).getD (.sc (.int 0))) ((attrOf "entityType" kv).getD (.sc (.none)), (attrOf "entityType" kt).getD (.sc (.none))) ((attrOf "appearanceRecordList" kv).getD (.sc (.none)), (attrOf "appearanceRecordList" kt).getD (.sc (.none)))) (by
    simp [Ctor.built, Ctor.SilentEntitySystem, HeapClass.SilentEntitySystem, InPlace.value, InPlace.SilentEntitySystem, Codec.SilentEntitySystem, SilentEntitySystem.init, Param.put, Tree.change, value_asIs, value_orFresh, value_copy, Tree.or_list, SilentEntitySystem.members, Tree.ints, Tree.objs, Tree.optInt, Tree.optObj, Tree.intOr, Tree.optFloat, Tree.noneOr, IntercomParametersValue.tree])

theorem SilentAggregateSystem.builds (numberOfAggregates aggregateType : Val × Tree) :
    Builds (SilentAggregateSystem.newHeap numberOfAggregates.1 aggregateType.1) [numberOfAggregates, aggregateType]
      (.obj [("numberOfAggregates", numberOfAggregates.2),
      ("aggregateType", aggregateType.2.or (.obj (AggregateType.members AggregateType.init))),
      ("entityType", .sc .absent)]) := by
  have a : Fills (fun self => SilentAggregateSystem.initHeap self numberOfAggregates.1 aggregateType.1) [numberOfAggregates, aggregateType]
      (([("numberOfAggregates", .sc .absent), ("aggregateType", .sc .absent), ("entityType", .sc .absent)] : List (String × Tree)) ++ []) []
      [("numberOfAggregates", numberOfAggregates.2),
      ("aggregateType", aggregateType.2.or (.obj (AggregateType.members AggregateType.init))),
      ("entityType", .sc .absent)] := by
    unfold SilentAggregateSystem.initHeap
    refine .bind (.arg (p := numberOfAggregates) (by simp [attrOf_putAttr_isSome, attrOf, SilentAggregateSystem.members])) ?_
    exact .cast (.or (p := aggregateType) AggregateType.makesNew (by simp [attrOf_putAttr_isSome, attrOf, SilentAggregateSystem.members]))
      (by simp [putAttr, SilentAggregateSystem.members, Tree.ints, Tree.objs, Tree.optInt, Tree.optObj, Tree.intOr, Tree.optFloat, Tree.noneOr, IntercomParametersValue.tree])
  exact .new a

theorem Ctor.SilentAggregateSystem.lawful : Ctor.SilentAggregateSystem.Lawful := by
  intro kv kt e ok
  refine .select [("numberOfAggregates", .int 0), ("aggregateType", .none)] (by simp) e ?_
  exact .cast (SilentAggregateSystem.builds ((attrOf "numberOfAggregates" kv).getD (.sc (.int 0)), (attrOf "numberOfAggregates" kt).getD (.sc (.int 0))) ((attrOf "aggregateType" kv).getD (.sc (.none)), (attrOf "aggregateType" kt).getD (.sc (.none)))) (by
    simp [Ctor.built, Ctor.SilentAggregateSystem, HeapClass.SilentAggregateSystem, InPlace.value, InPlace.SilentAggregateSystem, Codec.SilentAggregateSystem, SilentAggregateSystem.init, Param.put, Tree.change, value_asIs, value_orFresh, value_copy, Tree.or_list, SilentAggregateSystem.members, Tree.ints, Tree.objs, Tree.optInt, Tree.optObj, Tree.intOr, Tree.optFloat, Tree.noneOr, IntercomParametersValue.tree])

theorem BlankingSector.builds (emitterNumber beamNumber stateIndicator leftAzimuth rightAzimuth lowerElevation upperElevation residualPower : Val × Tree) :
    Builds (BlankingSector.newHeap emitterNumber.1 beamNumber.1 stateIndicator.1 leftAzimuth.1 rightAzimuth.1 lowerElevation.1 upperElevation.1 residualPower.1) [emitterNumber, beamNumber, stateIndicator, leftAzimuth, rightAzimuth, lowerElevation, upperElevation, residualPower]
      (.obj [("recordType", .sc (.int 3500)), ("recordLength", .sc (.int 40)), ("padding", .sc (.int 0)),
      ("emitterNumber", emitterNumber.2), ("beamNumber", beamNumber.2), ("stateIndicator", stateIndicator.2),
      ("padding2", .sc (.int 0)), ("leftAzimuth", leftAzimuth.2), ("rightAzimuth", rightAzimuth.2),
      ("lowerElevation", lowerElevation.2), ("upperElevation", upperElevation.2),
      ("residualPower", residualPower.2), ("padding3", .sc (.int 0)), ("padding4", .sc (.int 0))]) := by
  have a : Fills (fun self => BlankingSector.initHeap self emitterNumber.1 beamNumber.1 stateIndicator.1 leftAzimuth.1 rightAzimuth.1 lowerElevation.1 upperElevation.1 residualPower.1) [emitterNumber, beamNumber, stateIndicator, leftAzimuth, rightAzimuth, lowerElevation, upperElevation, residualPower]
      (([("recordType", .sc (.int 3500)), ("recordLength", .sc (.int 40)), ("padding", .sc .absent), ("emitterNumber", .sc .absent), ("beamNumber", .sc .absent), ("stateIndicator", .sc .absent), ("padding2", .sc .absent), ("leftAzimuth", .sc .absent), ("rightAzimuth", .sc .absent), ("lowerElevation", .sc .absent), ("upperElevation", .sc .absent), ("residualPower", .sc .absent), ("padding3", .sc .absent), ("padding4", .sc .absent)] : List (String × Tree)) ++ []) []
      [("recordType", .sc (.int 3500)), ("recordLength", .sc (.int 40)), ("padding", .sc (.int 0)),
      ("emitterNumber", emitterNumber.2), ("beamNumber", beamNumber.2), ("stateIndicator", stateIndicator.2),
      ("padding2", .sc (.int 0)), ("leftAzimuth", leftAzimuth.2), ("rightAzimuth", rightAzimuth.2),
      ("lowerElevation", lowerElevation.2), ("upperElevation", upperElevation.2),
      ("residualPower", residualPower.2), ("padding3", .sc (.int 0)), ("padding4", .sc (.int 0))] := by
    unfold BlankingSector.initHeap
    refine .bind (.inits (.set' (by simp [attrOf_putAttr_isSome, attrOf, BlankingSector.members]))) ?_
    refine .bind (.arg (p := emitterNumber) (by simp [attrOf_putAttr_isSome, attrOf, BlankingSector.members])) ?_
    refine .bind (.arg (p := beamNumber) (by simp [attrOf_putAttr_isSome, attrOf, BlankingSector.members])) ?_
    refine .bind (.arg (p := stateIndicator) (by simp [attrOf_putAttr_isSome, attrOf, BlankingSector.members])) ?_
    refine .bind (.inits (.set' (by simp [attrOf_putAttr_isSome, attrOf, BlankingSector.members]))) ?_
    refine .bind (.arg (p := leftAzimuth) (by simp [attrOf_putAttr_isSome, attrOf, BlankingSector.members])) ?_
    refine .bind (.arg (p := rightAzimuth) (by simp [attrOf_putAttr_isSome, attrOf, BlankingSector.members])) ?_
    refine .bind (.arg (p := lowerElevation) (by simp [attrOf_putAttr_isSome, attrOf, BlankingSector.members])) ?_
    refine .bind (.arg (p := upperElevation) (by simp [attrOf_putAttr_isSome, attrOf, BlankingSector.members])) ?_
    refine .bind (.arg (p := residualPower) (by simp [attrOf_putAttr_isSome, attrOf, BlankingSector.members])) ?_
    refine .bind (.inits (.set' (by simp [attrOf_putAttr_isSome, attrOf, BlankingSector.members]))) ?_
    exact .cast (.inits (.set' (by simp [attrOf_putAttr_isSome, attrOf, BlankingSector.members])))
      (by simp [putAttr, BlankingSector.members, Tree.ints, Tree.objs, Tree.optInt, Tree.optObj, Tree.intOr, Tree.optFloat, Tree.noneOr, IntercomParametersValue.tree])
  exact .new a

theorem Ctor.BlankingSector.lawful : Ctor.BlankingSector.Lawful := by
  intro kv kt e ok
  refine .select [("emitterNumber", .int 0), ("beamNumber", .int 0), ("stateIndicator", .int 0), ("leftAzimuth", .float 0x0000000000000000), ("rightAzimuth", .float 0x0000000000000000), ("lowerElevation", .float 0x0000000000000000), ("upperElevation", .float 0x0000000000000000), ("residualPower", .float 0x0000000000000000)] (by simp) e ?_
  exact .cast (BlankingSector.builds ((attrOf "emitterNumber" kv).getD (.sc (.int 0)), (attrOf "emitterNumber" kt).getD (.sc (.int 0))) ((attrOf "beamNumber" kv).getD (.sc (.int 0)), (attrOf "beamNumber" kt).getD (.sc (.int 0))) ((attrOf "stateIndicator" kv).getD (.sc (.int 0)), (attrOf "stateIndicator" kt).getD (.sc (.int 0))) ((attrOf "leftAzimuth" kv).getD (.sc (.float 0x0000000000000000)), (attrOf "leftAzimuth" kt).getD (.sc (.float 0x0000000000000000))) ((attrOf "rightAzimuth" kv).getD (.sc (.float 0x0000000000000000)), (attrOf "rightAzimuth" kt).getD (.sc (.float 0x0000000000000000))) ((attrOf "lowerElevation" kv).getD (.sc (.float 0x0000000000000000)), (attrOf "lowerElevation" kt).getD (.sc (.float 0x0000000000000000))) ((attrOf "upperElevation" kv).getD (.sc (.float 0x0000000000000000)), (attrOf "upperElevation" kt).getD (.sc (.float 0x0000000000000000))) ((attrOf "residualPower" kv).getD (.sc (.float 0x0000000000000000)), (attrOf "residualPower" kt).getD (.sc (.float 0x0000000000000000)))) (by
    simp [Ctor.built, Ctor.BlankingSector, HeapClass.BlankingSector, InPlace.value, InPlace.BlankingSector, Codec.BlankingSector, BlankingSector.init, Param.put, Tree.change, value_asIs, value_orFresh, value_copy, Tree.or_list, BlankingSector.members, Tree.ints, Tree.objs, Tree.optInt, Tree.optObj, Tree.intOr, Tree.optFloat, Tree.noneOr, IntercomParametersValue.tree])

theorem LaunchedMunitionRecord.builds (fireEventID firingEntityID targetEntityID targetLocation : Val × Tree) :
    Builds (LaunchedMunitionRecord.newHeap fireEventID.1 firingEntityID.1 targetEntityID.1 targetLocation.1) [fireEventID, firingEntityID, targetEntityID, targetLocation]
      (.obj [("fireEventID", fireEventID.2.or (.obj (EventIdentifier.members EventIdentifier.init))),
      ("padding", .sc (.int 0)),
      ("firingEntityID", firingEntityID.2.or (.obj (EventIdentifier.members EventIdentifier.init))),
      ("padding2", .sc (.int 0)),
      ("targetEntityID", targetEntityID.2.or (.obj (EventIdentifier.members EventIdentifier.init))),
      ("padding3", .sc (.int 0)),
      ("targetLocation", targetLocation.2.or (.obj (WorldCoordinates.members WorldCoordinates.init)))]) := by
  have a : Fills (fun self => LaunchedMunitionRecord.initHeap self fireEventID.1 firingEntityID.1 targetEntityID.1 targetLocation.1) [fireEventID, firingEntityID, targetEntityID, targetLocation]
      (([("fireEventID", .sc .absent), ("padding", .sc .absent), ("firingEntityID", .sc .absent), ("padding2", .sc .absent), ("targetEntityID", .sc .absent), ("padding3", .sc .absent), ("targetLocation", .sc .absent)] : List (String × Tree)) ++ []) []
      [("fireEventID", fireEventID.2.or (.obj (EventIdentifier.members EventIdentifier.init))),
      ("padding", .sc (.int 0)),
      ("firingEntityID", firingEntityID.2.or (.obj (EventIdentifier.members EventIdentifier.init))),
      ("padding2", .sc (.int 0)),
      ("targetEntityID", targetEntityID.2.or (.obj (EventIdentifier.members EventIdentifier.init))),
      ("padding3", .sc (.int 0)),
      ("targetLocation", targetLocation.2.or (.obj (WorldCoordinates.members WorldCoordinates.init)))] := by
    unfold LaunchedMunitionRecord.initHeap
    refine .bind (.or (p := fireEventID) EventIdentifier.makesNew (by simp [attrOf_putAttr_isSome, attrOf, LaunchedMunitionRecord.members])) ?_
    refine .bind (.inits (.set' (by simp [attrOf_putAttr_isSome, attrOf, LaunchedMunitionRecord.members]))) ?_
    refine .bind (.or (p := firingEntityID) EventIdentifier.makesNew (by simp [attrOf_putAttr_isSome, attrOf, LaunchedMunitionRecord.members])) ?_
    refine .bind (.inits (.set' (by simp [attrOf_putAttr_isSome, attrOf, LaunchedMunitionRecord.members]))) ?_
    refine .bind (.or (p := targetEntityID) EventIdentifier.makesNew (by simp [attrOf_putAttr_isSome, attrOf, LaunchedMunitionRecord.members])) ?_
    refine .bind (.inits (.set' (by simp [attrOf_putAttr_isSome, attrOf, LaunchedMunitionRecord.members]))) ?_
    exact .cast (.or (p := targetLocation) WorldCoordinates.makesNew (by simp [attrOf_putAttr_isSome, attrOf, LaunchedMunitionRecord.members]))
      (by simp [putAttr, LaunchedMunitionRecord.members, Tree.ints, Tree.objs, Tree.optInt, Tree.optObj, Tree.intOr, Tree.optFloat, Tree.noneOr, IntercomParametersValue.tree])
  exact .new a

theorem Ctor.LaunchedMunitionRecord.lawful : Ctor.LaunchedMunitionRecord.Lawful := by
  intro kv kt e ok
  refine .select [("fireEventID", .none), ("firingEntityID", .none), ("targetEntityID", .none), ("targetLocation", .none)] (by simp) e ?_
  exact .cast (LaunchedMunitionRecord.builds ((attrOf "fireEventID" kv).getD (.sc (.none)), (attrOf "fireEventID" kt).getD (.sc (.none))) ((attrOf "firingEntityID" kv).getD (.sc (.none)), (attrOf "firingEntityID" kt).getD (.sc (.none))) ((attrOf "targetEntityID" kv).getD (.sc (.none)), (attrOf "targetEntityID" kt).getD (.sc (.none))) ((attrOf "targetLocation" kv).getD (.sc (.none)), (attrOf "targetLocation" kt).getD (.sc (.none)))) (by
    simp [Ctor.built, Ctor.LaunchedMunitionRecord, HeapClass.LaunchedMunitionRecord, InPlace.value, InPlace.LaunchedMunitionRecord, Codec.LaunchedMunitionRecord, LaunchedMunitionRecord.init, Param.put, Tree.change, value_asIs, value_orFresh, value_copy, Tree.or_list, LaunchedMunitionRecord.members, Tree.ints, Tree.objs, Tree.optInt, Tree.optObj, Tree.intOr, Tree.optFloat, Tree.noneOr, IntercomParametersValue.tree])

theorem IFFFundamentalParameterData.builds (erp frequency pgrf pulseWidth burstLength applicableModes systemSpecificData : Val × Tree) :
    Builds (IFFFundamentalParameterData.newHeap erp.1 frequency.1 pgrf.1 pulseWidth.1 burstLength.1 applicableModes.1 systemSpecificData.1) [erp, frequency, pgrf, pulseWidth, burstLength, applicableModes, systemSpecificData]
      (.obj [("erp", erp.2), ("frequency", frequency.2), ("pgrf", pgrf.2), ("pulseWidth", pulseWidth.2),
      ("burstLength", burstLength.2), ("applicableModes", applicableModes.2),
      ("systemSpecificData", systemSpecificData.2.or (.list ((List.replicate 3 (0 : Int)).map fun v => .sc (.int v))))]) := by
  have a : Fills (fun self => IFFFundamentalParameterData.initHeap self erp.1 frequency.1 pgrf.1 pulseWidth.1 burstLength.1 applicableModes.1 systemSpecificData.1) [erp, frequency, pgrf, pulseWidth, burstLength, applicableModes, systemSpecificData]
      (([("erp", .sc .absent), ("frequency", .sc .absent), ("pgrf", .sc .absent), ("pulseWidth", .sc .absent), ("burstLength", .sc .absent), ("applicableModes", .sc .absent), ("systemSpecificData", .sc .absent)] : List (String × Tree)) ++ []) []
      [("erp", erp.2), ("frequency", frequency.2), ("pgrf", pgrf.2), ("pulseWidth", pulseWidth.2),
      ("burstLength", burstLength.2), ("applicableModes", applicableModes.2),
      ("systemSpecificData", systemSpecificData.2.or (.list ((List.replicate 3 (0 : Int)).map fun v => .sc (.int v))))] := by
    unfold IFFFundamentalParameterData.initHeap
    refine .bind (.arg (p := erp) (by simp [attrOf_putAttr_isSome, attrOf, IFFFundamentalParameterData.members])) ?_
    refine .bind (.arg (p := frequency) (by simp [attrOf_putAttr_isSome, attrOf, IFFFundamentalParameterData.members])) ?_
    refine .bind (.arg (p := pgrf) (by simp [attrOf_putAttr_isSome, attrOf, IFFFundamentalParameterData.members])) ?_
    refine .bind (.arg (p := pulseWidth) (by simp [attrOf_putAttr_isSome, attrOf, IFFFundamentalParameterData.members])) ?_
    refine .bind (.arg (p := burstLength) (by simp [attrOf_putAttr_isSome, attrOf, IFFFundamentalParameterData.members])) ?_
    refine .bind (.arg (p := applicableModes) (by simp [attrOf_putAttr_isSome, attrOf, IFFFundamentalParameterData.members])) ?_
    exact .cast (.or (p := systemSpecificData) (.zeros 3) (by simp [attrOf_putAttr_isSome, attrOf, IFFFundamentalParameterData.members]))
      (by simp [putAttr, IFFFundamentalParameterData.members, Tree.ints, Tree.objs, Tree.optInt, Tree.optObj, Tree.intOr, Tree.optFloat, Tree.noneOr, IntercomParametersValue.tree])
  exact .new a

theorem Ctor.IFFFundamentalParameterData.lawful : Ctor.IFFFundamentalParameterData.Lawful := by
  intro kv kt e ok
  refine .select [("erp", .float 0x0000000000000000), ("frequency", .float 0x0000000000000000), ("pgrf", .float 0x0000000000000000), ("pulseWidth", .float 0x0000000000000000), ("burstLength", .int 0), ("applicableModes", .int 0), ("systemSpecificData", .none)] (by simp) e ?_
  exact .cast (IFFFundamentalParameterData.builds ((attrOf "erp" kv).getD (.sc (.float 0x0000000000000000)), (attrOf "erp" kt).getD (.sc (.float 0x0000000000000000))) ((attrOf "frequency" kv).getD (.sc (.float 0x0000000000000000)), (attrOf "frequency" kt).getD (.sc (.float 0x0000000000000000))) ((attrOf "pgrf" kv).getD (.sc (.float 0x0000000000000000)), (attrOf "pgrf" kt).getD (.sc (.float 0x0000000000000000))) ((attrOf "pulseWidth" kv).getD (.sc (.float 0x0000000000000000)), (attrOf "pulseWidth" kt).getD (.sc (.float 0x0000000000000000))) ((attrOf "burstLength" kv).getD (.sc (.int 0)), (attrOf "burstLength" kt).getD (.sc (.int 0))) ((attrOf "applicableModes" kv).getD (.sc (.int 0)), (attrOf "applicableModes" kt).getD (.sc (.int 0))) ((attrOf "systemSpecificData" kv).getD (.sc (.none)), (attrOf "systemSpecificData" kt).getD (.sc (.none)))) (by
    simp [Ctor.built, Ctor.IFFFundamentalParameterData, HeapClass.IFFFundamentalParameterData, InPlace.value, InPlace.IFFFundamentalParameterData, Codec.IFFFundamentalParameterData, IFFFundamentalParameterData.init, Param.put, Tree.change, value_asIs, value_orFresh, value_copy, Tree.or_list, IFFFundamentalParameterData.members, Tree.ints, Tree.objs, Tree.optInt, Tree.optObj, Tree.intOr, Tree.optFloat, Tree.noneOr, IntercomParametersValue.tree])

theorem FundamentalOperationalData.builds (systemStatus dataField1 informationLayers dataField2 parameter1 parameter2 parameter3 parameter4 parameter5 parameter6 : Val × Tree) :
    Builds (FundamentalOperationalData.newHeap systemStatus.1 dataField1.1 informationLayers.1 dataField2.1 parameter1.1 parameter2.1 parameter3.1 parameter4.1 parameter5.1 parameter6.1) [systemStatus, dataField1, informationLayers, dataField2, parameter1, parameter2, parameter3, parameter4, parameter5, parameter6]
      (.obj [("systemStatus", systemStatus.2), ("dataField1", dataField1.2),
      ("informationLayers", informationLayers.2), ("dataField2", dataField2.2), ("parameter1", parameter1.2),
      ("parameter2", parameter2.2), ("parameter3", parameter3.2), ("parameter4", parameter4.2),
      ("parameter5", parameter5.2), ("parameter6", parameter6.2)]) := by
  have a : Fills (fun self => FundamentalOperationalData.initHeap self systemStatus.1 dataField1.1 informationLayers.1 dataField2.1 parameter1.1 parameter2.1 parameter3.1 parameter4.1 parameter5.1 parameter6.1) [systemStatus, dataField1, informationLayers, dataField2, parameter1, parameter2, parameter3, parameter4, parameter5, parameter6]
      (([("systemStatus", .sc .absent), ("dataField1", .sc .absent), ("informationLayers", .sc .absent), ("dataField2", .sc .absent), ("parameter1", .sc .absent), ("parameter2", .sc .absent), ("parameter3", .sc .absent), ("parameter4", .sc .absent), ("parameter5", .sc .absent), ("parameter6", .sc .absent)] : List (String × Tree)) ++ []) []
      [("systemStatus", systemStatus.2), ("dataField1", dataField1.2),
      ("informationLayers", informationLayers.2), ("dataField2", dataField2.2), ("parameter1", parameter1.2),
      ("parameter2", parameter2.2), ("parameter3", parameter3.2), ("parameter4", parameter4.2),
      ("parameter5", parameter5.2), ("parameter6", parameter6.2)] := by
    unfold FundamentalOperationalData.initHeap
    refine .bind (.arg (p := systemStatus) (by simp [attrOf_putAttr_isSome, attrOf, FundamentalOperationalData.members])) ?_
    refine .bind (.arg (p := dataField1) (by simp [attrOf_putAttr_isSome, attrOf, FundamentalOperationalData.members])) ?_
    refine .bind (.arg (p := informationLayers) (by simp [attrOf_putAttr_isSome, attrOf, FundamentalOperationalData.members])) ?_
    refine .bind (.arg (p := dataField2) (by simp [attrOf_putAttr_isSome, attrOf, FundamentalOperationalData.members])) ?_
    refine .bind (.arg (p := parameter1) (by simp [attrOf_putAttr_isSome, attrOf, FundamentalOperationalData.members])) ?_
    refine .bind (.arg (p := parameter2) (by simp [attrOf_putAttr_isSome, attrOf, FundamentalOperationalData.members])) ?_
    refine .bind (.arg (p := parameter3) (by simp [attrOf_putAttr_isSome, attrOf, FundamentalOperationalData.members])) ?_
    refine .bind (.arg (p := parameter4) (by simp [attrOf_putAttr_isSome, attrOf, FundamentalOperationalData.members])) ?_
    refine .bind (.arg (p := parameter5) (by simp [attrOf_putAttr_isSome, attrOf, FundamentalOperationalData.members])) ?_
    exact .cast (.arg (p := parameter6) (by simp [attrOf_putAttr_isSome, attrOf, FundamentalOperationalData.members]))
      (by simp [putAttr, FundamentalOperationalData.members, Tree.ints, Tree.objs, Tree.optInt, Tree.optObj, Tree.intOr, Tree.optFloat, Tree.noneOr, IntercomParametersValue.tree])
  exact .new a

theorem Ctor.FundamentalOperationalData.lawful : Ctor.FundamentalOperationalData.Lawful := by
  intro kv kt e ok
  refine .select [("systemStatus", .int 0), ("dataField1", .int 0), ("informationLayers", .int 0), ("dataField2", .int 0), ("parameter1", .int 0), ("parameter2", .int 0), ("parameter3", .int 0), ("parameter4", .int 0), ("parameter5", .int 0), ("parameter6", .int 0)] (by simp) e ?_
  exact .cast (FundamentalOperationalData.builds ((attrOf "systemStatus" kv).getD (.sc (.int 0)), (attrOf "systemStatus" kt).getD (.sc (.int 0))) ((attrOf "dataField1" kv).getD (.sc (.int 0)), (attrOf "dataField1" kt).getD (.sc (.int 0))) ((attrOf "informationLayers" kv).getD (.sc (.int 0)), (attrOf "informationLayers" kt).getD (.sc (.int 0))) ((attrOf "dataField2" kv).getD (.sc (.int 0)), (attrOf "dataField2" kt).getD (.sc (.int 0))) ((attrOf "parameter1" kv).getD (.sc (.int 0)), (attrOf "parameter1" kt).getD (.sc (.int 0))) ((attrOf "parameter2" kv).getD (.sc (.int 0)), (attrOf "parameter2" kt).getD (.sc (.int 0))) ((attrOf "parameter3" kv).getD (.sc (.int 0)), (attrOf "parameter3" kt).getD (.sc (.int 0))) ((attrOf "parameter4" kv).getD (.sc (.int 0)), (attrOf "parameter4" kt).getD (.sc (.int 0))) ((attrOf "parameter5" kv).getD (.sc (.int 0)), (attrOf "parameter5" kt).getD (.sc (.int 0))) ((attrOf "parameter6" kv).getD (.sc (.int 0)), (attrOf "parameter6" kt).getD (.sc (.int 0)))) (by
    simp [Ctor.built, Ctor.FundamentalOperationalData, HeapClass.FundamentalOperationalData, InPlace.value, InPlace.FundamentalOperationalData, Codec.FundamentalOperationalData, FundamentalOperationalData.init, Param.put, Tree.change, value_asIs, value_orFresh, value_copy, Tree.or_list, FundamentalOperationalData.members, Tree.ints, Tree.objs, Tree.optInt, Tree.optObj, Tree.intOr, Tree.optFloat, Tree.noneOr, IntercomParametersValue.tree])

theorem IntercomCommunicationsParameters.builds (recordType recordLength recordSpecificField : Val × Tree) :
    Builds (IntercomCommunicationsParameters.newHeap recordType.1 recordLength.1 recordSpecificField.1) [recordType, recordLength, recordSpecificField]
      (.obj [("recordType", recordType.2), ("recordLength", recordLength.2),
      ("recordSpecificField", recordSpecificField.2)]) := by
  have a : Fills (fun self => IntercomCommunicationsParameters.initHeap self recordType.1 recordLength.1 recordSpecificField.1) [recordType, recordLength, recordSpecificField]
      (([("recordType", .sc .absent), ("recordLength", .sc .absent), ("recordSpecificField", .sc .absent)] : List (String × Tree)) ++ []) []
      [("recordType", recordType.2), ("recordLength", recordLength.2),
      ("recordSpecificField", recordSpecificField.2)] := by
    unfold IntercomCommunicationsParameters.initHeap
    refine .bind (.arg (p := recordType) (by simp [attrOf_putAttr_isSome, attrOf, IntercomCommunicationsParameters.members])) ?_
    refine .bind (.arg (p := recordLength) (by simp [attrOf_putAttr_isSome, attrOf, IntercomCommunicationsParameters.members])) ?_
    exact .cast (.arg (p := recordSpecificField) (by simp [attrOf_putAttr_isSome, attrOf, IntercomCommunicationsParameters.members]))
      (by simp [putAttr, IntercomCommunicationsParameters.members, Tree.ints, Tree.objs, Tree.optInt, Tree.optObj, Tree.intOr, Tree.optFloat, Tree.noneOr, IntercomParametersValue.tree])
  exact .new a

theorem Ctor.IntercomCommunicationsParameters.lawful : Ctor.IntercomCommunicationsParameters.Lawful := by
  intro kv kt e ok
  refine .select [("recordType", .int 0), ("recordLength", .int 0), ("recordSpecificField", .int 0)] (by simp) e ?_
  exact .cast (IntercomCommunicationsParameters.builds ((attrOf "recordType" kv).getD (.sc (.int 0)), (attrOf "recordType" kt).getD (.sc (.int 0))) ((attrOf "recordLength" kv).getD (.sc (.int 0)), (attrOf "recordLength" kt).getD (.sc (.int 0))) ((attrOf "recordSpecificField" kv).getD (.sc (.int 0)), (attrOf "recordSpecificField" kt).getD (.sc (.int 0)))) (by
    simp [Ctor.built, Ctor.IntercomCommunicationsParameters, HeapClass.IntercomCommunicationsParameters, InPlace.value, InPlace.IntercomCommunicationsParameters, Codec.IntercomCommunicationsParameters, IntercomCommunicationsParameters.init, Param.put, Tree.change, value_asIs, value_orFresh, value_copy, Tree.or_list, IntercomCommunicationsParameters.members, Tree.ints, Tree.objs, Tree.optInt, Tree.optObj, Tree.intOr, Tree.optFloat, Tree.noneOr, IntercomParametersValue.tree])

theorem Munition.builds (munitionType station quantity munitionStatus : Val × Tree) :
    Builds (Munition.newHeap munitionType.1 station.1 quantity.1 munitionStatus.1) [munitionType, station, quantity, munitionStatus]
      (.obj [("munitionType", munitionType.2.or (.obj (EntityType.members EntityType.init))), ("station", station.2),
      ("quantity", quantity.2), ("munitionStatus", munitionStatus.2), ("padding", .sc (.int 0))]) := by
  have a : Fills (fun self => Munition.initHeap self munitionType.1 station.1 quantity.1 munitionStatus.1) [munitionType, station, quantity, munitionStatus]
      (([("munitionType", .sc .absent), ("station", .sc .absent), ("quantity", .sc .absent), ("munitionStatus", .sc .absent), ("padding", .sc .absent)] : List (String × Tree)) ++ []) []
      [("munitionType", munitionType.2.or (.obj (EntityType.members EntityType.init))), ("station", station.2),
      ("quantity", quantity.2), ("munitionStatus", munitionStatus.2), ("padding", .sc (.int 0))] := by
    unfold Munition.initHeap
    refine .bind (.or (p := munitionType) EntityType.makesNew (by simp [attrOf_putAttr_isSome, attrOf, Munition.members])) ?_
    refine .bind (.arg (p := station) (by simp [attrOf_putAttr_isSome, attrOf, Munition.members])) ?_
    refine .bind (.arg (p := quantity) (by simp [attrOf_putAttr_isSome, attrOf, Munition.members])) ?_
    refine .bind (.arg (p := munitionStatus) (by simp [attrOf_putAttr_isSome, attrOf, Munition.members])) ?_
    exact .cast (.inits (.set' (by simp [attrOf_putAttr_isSome, attrOf, Munition.members])))
      (by simp [putAttr, Munition.members, Tree.ints, Tree.objs, Tree.optInt, Tree.optObj, Tree.intOr, Tree.optFloat, Tree.noneOr, IntercomParametersValue.tree])
  exact .new a

theorem Ctor.Munition.lawful : Ctor.Munition.Lawful := by
  intro kv kt e ok
  refine .select [("munitionType", .none), ("station", .int 0), ("quantity", .int 0), ("munitionStatus", .int 0)] (by simp) e ?_
  exact .cast (Munition.builds ((attrOf "munitionType" kv).getD (.sc (.none)), (attrOf "munitionType" kt).getD (.sc (.none))) ((attrOf "station" kv).getD (.sc (.int 0)), (attrOf "station" kt).getD (.sc (.int 0))) ((attrOf "quantity" kv).getD (.sc (.int 0)), (attrOf "quantity" kt).getD (.sc (.int 0))) ((attrOf "munitionStatus" kv).getD (.sc (.int 0)), (attrOf "munitionStatus" kt).getD (.sc (.int 0)))) (by
    simp [Ctor.built, Ctor.Munition, HeapClass.Munition, InPlace.value, InPlace.Munition, Codec.Munition, Munition.init, Param.put, Tree.change, value_asIs, value_orFresh, value_copy, Tree.or_list, Munition.members, Tree.ints, Tree.objs, Tree.optInt, Tree.optObj, Tree.intOr, Tree.optFloat, Tree.noneOr, IntercomParametersValue.tree])

theorem StandardVariableSpecification.builds (standardVariables : Val × Tree) :
    Builds (StandardVariableSpecification.newHeap standardVariables.1) [standardVariables]
      (.obj [("standardVariables", standardVariables.2.or (.list []))]) := by
  have a : Fills (fun self => StandardVariableSpecification.initHeap self standardVariables.1) [standardVariables]
      (([("standardVariables", .sc .absent)] : List (String × Tree)) ++ []) []
      [("standardVariables", standardVariables.2.or (.list []))] := by
    unfold StandardVariableSpecification.initHeap
    exact .cast (.or (p := standardVariables) .empty (by simp [attrOf_putAttr_isSome, attrOf, StandardVariableSpecification.members]))
      (by simp [putAttr, StandardVariableSpecification.members, Tree.ints, Tree.objs, Tree.optInt, Tree.optObj, Tree.intOr, Tree.optFloat, Tree.noneOr, IntercomParametersValue.tree])
  exact .new a

theorem Ctor.StandardVariableSpecification.lawful : Ctor.StandardVariableSpecification.Lawful := by
  intro kv kt e ok
  refine .select [("standardVariables", .none)] (by simp) e ?_
  exact .cast (StandardVariableSpecification.builds ((attrOf "standardVariables" kv).getD (.sc (.none)), (attrOf "standardVariables" kt).getD (.sc (.none)))) (by
    simp [Ctor.built, Ctor.StandardVariableSpecification, HeapClass.StandardVariableSpecification, InPlace.value, InPlace.StandardVariableSpecification, Codec.StandardVariableSpecification, StandardVariableSpecification.init, Param.put, Tree.change, value_asIs, value_orFresh, value_copy, Tree.or_list, StandardVariableSpecification.members, Tree.ints, Tree.objs, Tree.optInt, Tree.optObj, Tree.intOr, Tree.optFloat, Tree.noneOr, IntercomParametersValue.tree])

theorem Vector2Float.builds (x y : Val × Tree) :
    Builds (Vector2Float.newHeap x.1 y.1) [x, y]
      (.obj [("x", x.2), ("y", y.2)]) := by
  have a : Fills (fun self => Vector2Float.initHeap self x.1 y.1) [x, y]
      (([("x", .sc .absent), ("y", .sc .absent)] : List (String × Tree)) ++ []) []
      [("x", x.2), ("y", y.2)] := by
    unfold Vector2Float.initHeap
    refine .bind (.arg (p := x) (by simp [attrOf_putAttr_isSome, attrOf, Vector2Float.members])) ?_
    exact .cast (.arg (p := y) (by simp [attrOf_putAttr_isSome, attrOf, Vector2Float.members]))
      (by simp [putAttr, Vector2Float.members, Tree.ints, Tree.objs, Tree.optInt, Tree.optObj, Tree.intOr, Tree.optFloat, Tree.noneOr, IntercomParametersValue.tree])
  exact .new a

theorem Ctor.Vector2Float.lawful : Ctor.Vector2Float.Lawful := by
  intro kv kt e ok
  refine .select [("x", .float 0x0000000000000000), ("y", .float 0x0000000000000000)] (by simp) e ?_
  exact .cast (Vector2Float.builds ((attrOf "x" kv).getD (.sc (.float 0x0000000000000000)), (attrOf "x" kt).getD (.sc (.float 0x0000000000000000))) ((attrOf "y" kv).getD (.sc (.float 0x0000000000000000)), (attrOf "y" kt).getD (.sc (.float 0x0000000000000000)))) (by
    simp [Ctor.built, Ctor.Vector2Float, HeapClass.Vector2Float, InPlace.value, InPlace.Vector2Float, Codec.Vector2Float, Vector2Float.init, Param.put, Tree.change, value_asIs, value_orFresh, value_copy, Tree.or_list, Vector2Float.members, Tree.ints, Tree.objs, Tree.optInt, Tree.optObj, Tree.intOr, Tree.optFloat, Tree.noneOr, IntercomParametersValue.tree])

theorem Environment.builds (environmentType length index : Val × Tree) :
    Builds (Environment.newHeap environmentType.1 length.1 index.1) [environmentType, length, index]
      (.obj [("environmentType", environmentType.2), ("length", length.2), ("index", index.2),
      ("padding0", .sc (.int 0)), ("padding1", .sc (.int 0)), ("padding", .sc .absent)]) := by
  have a : Fills (fun self => Environment.initHeap self environmentType.1 length.1 index.1) [environmentType, length, index]
      (([("environmentType", .sc .absent), ("length", .sc .absent), ("index", .sc .absent), ("padding0", .sc .absent), ("padding1", .sc .absent), ("padding", .sc .absent)] : List (String × Tree)) ++ []) []
      [("environmentType", environmentType.2), ("length", length.2), ("index", index.2),
      ("padding0", .sc (.int 0)), ("padding1", .sc (.int 0)), ("padding", .sc .absent)] := by
    unfold Environment.initHeap
    refine .bind (.arg (p := environmentType) (by simp [attrOf_putAttr_isSome, attrOf, Environment.members])) ?_
    refine .bind (.arg (p := length) (by simp [attrOf_putAttr_isSome, attrOf, Environment.members])) ?_
    refine .bind (.arg (p := index) (by simp [attrOf_putAttr_isSome, attrOf, Environment.members])) ?_
    refine .bind (.inits (.set' (by simp [attrOf_putAttr_isSome, attrOf, Environment.members]))) ?_
    exact .cast (.inits (.set' (by simp [attrOf_putAttr_isSome, attrOf, Environment.members])))
      (by simp [putAttr, Environment.members, Tree.ints, Tree.objs, Tree.optInt, Tree.optObj, Tree.intOr, Tree.optFloat, Tree.noneOr, IntercomParametersValue.tree])
  exact .new a

theorem Ctor.Environment.lawful : Ctor.Environment.Lawful := by
  intro kv kt e ok
  refine .select [("environmentType", .int 0), ("length", .int 0), ("index", .int 0)] (by simp) e ?_
  exact .cast (Environment.builds ((attrOf "environmentType" kv).getD (.sc (.int 0)), (attrOf "environmentType" kt).getD (.sc (.int 0))) ((attrOf "length" kv).getD (.sc (.int 0)), (attrOf "length" kt).getD (.sc (.int 0))) ((attrOf "index" kv).getD (.sc (.int 0)), (attrOf "index" kt).getD (.sc (.int 0)))) (by
    simp [Ctor.built, Ctor.Environment, HeapClass.Environment, InPlace.value, InPlace.Environment, Codec.Environment, Environment.init, Param.put, Tree.change, value_asIs, value_orFresh, value_copy, Tree.or_list, Environment.members, Tree.ints, Tree.objs, Tree.optInt, Tree.optObj, Tree.intOr, Tree.optFloat, Tree.noneOr, IntercomParametersValue.tree])

theorem AcousticEmitter.builds (acousticSystemName acousticFunction acousticIDNumber : Val × Tree) :
    Builds (AcousticEmitter.newHeap acousticSystemName.1 acousticFunction.1 acousticIDNumber.1) [acousticSystemName, acousticFunction, acousticIDNumber]
      (.obj [("acousticSystemName", acousticSystemName.2), ("acousticFunction", acousticFunction.2),
      ("acousticIDNumber", acousticIDNumber.2)]) := by
  have a : Fills (fun self => AcousticEmitter.initHeap self acousticSystemName.1 acousticFunction.1 acousticIDNumber.1) [acousticSystemName, acousticFunction, acousticIDNumber]
      (([("acousticSystemName", .sc .absent), ("acousticFunction", .sc .absent), ("acousticIDNumber", .sc .absent)] : List (String × Tree)) ++ []) []
      [("acousticSystemName", acousticSystemName.2), ("acousticFunction", acousticFunction.2),
      ("acousticIDNumber", acousticIDNumber.2)] := by
    unfold AcousticEmitter.initHeap
    refine .bind (.arg (p := acousticSystemName) (by simp [attrOf_putAttr_isSome, attrOf, AcousticEmitter.members])) ?_
    refine .bind (.arg (p := acousticFunction) (by simp [attrOf_putAttr_isSome, attrOf, AcousticEmitter.members])) ?_
    exact .cast (.arg (p := acousticIDNumber) (by simp [attrOf_putAttr_isSome, attrOf, AcousticEmitter.members]))
      (by simp [putAttr, AcousticEmitter.members, Tree.ints, Tree.objs, Tree.optInt, Tree.optObj, Tree.intOr, Tree.optFloat, Tree.noneOr, IntercomParametersValue.tree])
  exact .new a

theorem Ctor.AcousticEmitter.lawful : Ctor.AcousticEmitter.Lawful := by
  intro kv kt e ok
  refine .select [("acousticSystemName", .int 0), ("acousticFunction", .int 0), ("acousticIDNumber", .int 0)] (by simp) e ?_
  exact .cast (AcousticEmitter.builds ((attrOf "acousticSystemName" kv).getD (.sc (.int 0)), (attrOf "acousticSystemName" kt).getD (.sc (.int 0))) ((attrOf "acousticFunction" kv).getD (.sc (.int 0)), (attrOf "acousticFunction" kt).getD (.sc (.int 0))) ((attrOf "acousticIDNumber" kv).getD (.sc (.int 0)), (attrOf "acousticIDNumber" kt).getD (.sc (.int 0)))) (by
    simp [Ctor.built, Ctor.AcousticEmitter, HeapClass.AcousticEmitter, InPlace.value, InPlace.AcousticEmitter, Codec.AcousticEmitter, AcousticEmitter.init, Param.put, Tree.change, value_asIs, value_orFresh, value_copy, Tree.or_list, AcousticEmitter.members, Tree.ints, Tree.objs, Tree.optInt, Tree.optObj, Tree.intOr, Tree.optFloat, Tree.noneOr, IntercomParametersValue.tree])

theorem AngularVelocityVector.builds (x y z : Val × Tree) :
    Builds (AngularVelocityVector.newHeap x.1 y.1 z.1) [x, y, z]
      (.obj [("x", .sc (.float 0x0000000000000000)), ("y", .sc (.float 0x0000000000000000)),
      ("z", .sc (.float 0x0000000000000000))]) := by
  have a : Fills (fun self => AngularVelocityVector.initHeap self x.1 y.1 z.1) [x, y, z]
      (([("x", .sc .absent), ("y", .sc .absent), ("z", .sc .absent)] : List (String × Tree)) ++ []) [x, y, z]
      [("x", .sc (.float 0x0000000000000000)), ("y", .sc (.float 0x0000000000000000)),
      ("z", .sc (.float 0x0000000000000000))] := by
    unfold AngularVelocityVector.initHeap
    refine .bind (.inits (.set' (by simp [attrOf_putAttr_isSome, attrOf, AngularVelocityVector.members]))) ?_
    refine .bind (.inits (.set' (by simp [attrOf_putAttr_isSome, attrOf, AngularVelocityVector.members]))) ?_
    exact .cast (.inits (.set' (by simp [attrOf_putAttr_isSome, attrOf, AngularVelocityVector.members])))
      (by simp [putAttr, AngularVelocityVector.members, Tree.ints, Tree.objs, Tree.optInt, Tree.optObj, Tree.intOr, Tree.optFloat, Tree.noneOr, IntercomParametersValue.tree])
  exact .new a

theorem Ctor.AngularVelocityVector.lawful : Ctor.AngularVelocityVector.Lawful := by
  intro kv kt e ok
  refine .select [("x", .float 0x0000000000000000), ("y", .float 0x0000000000000000), ("z", .float 0x0000000000000000)] (by simp) e ?_
  exact .cast (AngularVelocityVector.builds ((attrOf "x" kv).getD (.sc (.float 0x0000000000000000)), (attrOf "x" kt).getD (.sc (.float 0x0000000000000000))) ((attrOf "y" kv).getD (.sc (.float 0x0000000000000000)), (attrOf "y" kt).getD (.sc (.float 0x0000000000000000))) ((attrOf "z" kv).getD (.sc (.float 0x0000000000000000)), (attrOf "z" kt).getD (.sc (.float 0x0000000000000000)))) (by
    simp [Ctor.built, Ctor.AngularVelocityVector, HeapClass.AngularVelocityVector, InPlace.value, InPlace.AngularVelocityVector, Codec.AngularVelocityVector, AngularVelocityVector.init, Param.put, Tree.change, value_asIs, value_orFresh, value_copy, Tree.or_list, AngularVelocityVector.members, Tree.ints, Tree.objs, Tree.optInt, Tree.optObj, Tree.intOr, Tree.optFloat, Tree.noneOr, IntercomParametersValue.tree])

theorem AggregateMarking.builds (characterSet characters : Val × Tree) :
    Builds (AggregateMarking.newHeap characterSet.1 characters.1) [characterSet, characters]
      (.obj [("characterSet", characterSet.2),
      ("characters", .list ((List.replicate 31 (0 : Int)).map fun v => .sc (.int v)))]) := by
  have a : Fills (fun self => AggregateMarking.initHeap self characterSet.1 characters.1) [characterSet, characters]
      (([("characterSet", .sc .absent), ("characters", .sc .absent)] : List (String × Tree)) ++ []) [characters]
      [("characterSet", characterSet.2),
      ("characters", .list ((List.replicate 31 (0 : Int)).map fun v => .sc (.int v)))] := by
    unfold AggregateMarking.initHeap
    refine .bind (.arg (p := characterSet) (by simp [attrOf_putAttr_isSome, attrOf, AggregateMarking.members])) ?_
    exact .cast (.inits (.setNew' (.zeros 31) (by simp [attrOf_putAttr_isSome, attrOf, AggregateMarking.members])))
      (by simp [putAttr, AggregateMarking.members, Tree.ints, Tree.objs, Tree.optInt, Tree.optObj, Tree.intOr, Tree.optFloat, Tree.noneOr, IntercomParametersValue.tree])
  exact .new a

theorem Ctor.AggregateMarking.lawful : Ctor.AggregateMarking.Lawful := by
  intro kv kt e ok
  refine .select [("characterSet", .int 0), ("characters", .none)] (by simp) e ?_
  exact .cast (AggregateMarking.builds ((attrOf "characterSet" kv).getD (.sc (.int 0)), (attrOf "characterSet" kt).getD (.sc (.int 0))) ((attrOf "characters" kv).getD (.sc (.none)), (attrOf "characters" kt).getD (.sc (.none)))) (by
    simp [Ctor.built, Ctor.AggregateMarking, HeapClass.AggregateMarking, InPlace.value, InPlace.AggregateMarking, Codec.AggregateMarking, AggregateMarking.init, Param.put, Tree.change, value_asIs, value_orFresh, value_copy, Tree.or_list, AggregateMarking.members, Tree.ints, Tree.objs, Tree.optInt, Tree.optObj, Tree.intOr, Tree.optFloat, Tree.noneOr, IntercomParametersValue.tree])

theorem DataFilterRecord.builds (bitFlags : Val × Tree) :
    Builds (DataFilterRecord.newHeap bitFlags.1) [bitFlags]
      (.obj [("bitFlags", bitFlags.2)]) := by
  have a : Fills (fun self => DataFilterRecord.initHeap self bitFlags.1) [bitFlags]
      (([("bitFlags", .sc .absent)] : List (String × Tree)) ++ []) []
      [("bitFlags", bitFlags.2)] := by
    unfold DataFilterRecord.initHeap
    exact .cast (.arg (p := bitFlags) (by simp [attrOf_putAttr_isSome, attrOf, DataFilterRecord.members]))
      (by simp [putAttr, DataFilterRecord.members, Tree.ints, Tree.objs, Tree.optInt, Tree.optObj, Tree.intOr, Tree.optFloat, Tree.noneOr, IntercomParametersValue.tree])
  exact .new a

theorem Ctor.DataFilterRecord.lawful : Ctor.DataFilterRecord.Lawful := by
  intro kv kt e ok
  refine .select [("bitFlags", .int 0)] (by simp) e ?_
  exact .cast (DataFilterRecord.builds ((attrOf "bitFlags" kv).getD (.sc (.int 0)), (attrOf "bitFlags" kt).getD (.sc (.int 0)))) (by
    simp [Ctor.built, Ctor.DataFilterRecord, HeapClass.DataFilterRecord, InPlace.value, InPlace.DataFilterRecord, Codec.DataFilterRecord, DataFilterRecord.init, Param.put, Tree.change, value_asIs, value_orFresh, value_copy, Tree.or_list, DataFilterRecord.members, Tree.ints, Tree.objs, Tree.optInt, Tree.optObj, Tree.intOr, Tree.optFloat, Tree.noneOr, IntercomParametersValue.tree])

theorem IntercomIdentifier.builds (siteNumber applicationNumber referenceNumber intercomNumber : Val × Tree) :
    Builds (IntercomIdentifier.newHeap siteNumber.1 applicationNumber.1 referenceNumber.1 intercomNumber.1) [siteNumber, applicationNumber, referenceNumber, intercomNumber]
      (.obj [("siteNumber", siteNumber.2), ("applicationNumber", applicationNumber.2),
      ("referenceNumber", referenceNumber.2), ("intercomNumber", intercomNumber.2)]) := by
  have a : Fills (fun self => IntercomIdentifier.initHeap self siteNumber.1 applicationNumber.1 referenceNumber.1 intercomNumber.1) [siteNumber, applicationNumber, referenceNumber, intercomNumber]
      (([("siteNumber", .sc .absent), ("applicationNumber", .sc .absent), ("referenceNumber", .sc .absent), ("intercomNumber", .sc .absent)] : List (String × Tree)) ++ []) []
      [("siteNumber", siteNumber.2), ("applicationNumber", applicationNumber.2),
      ("referenceNumber", referenceNumber.2), ("intercomNumber", intercomNumber.2)] := by
    unfold IntercomIdentifier.initHeap
    refine .bind (.arg (p := siteNumber) (by simp [attrOf_putAttr_isSome, attrOf, IntercomIdentifier.members])) ?_
    refine .bind (.arg (p := applicationNumber) (by simp [attrOf_putAttr_isSome, attrOf, IntercomIdentifier.members])) ?_
    refine .bind (.arg (p := referenceNumber) (by simp [attrOf_putAttr_isSome, attrOf, IntercomIdentifier.members])) ?_
    exact .cast (.arg (p := intercomNumber) (by simp [attrOf_putAttr_isSome, attrOf, IntercomIdentifier.members]))
      (by simp [putAttr, IntercomIdentifier.members, Tree.ints, Tree.objs, Tree.optInt, Tree.optObj, Tree.intOr, Tree.optFloat, Tree.noneOr, IntercomParametersValue.tree])
  exact .new a

theorem Ctor.IntercomIdentifier.lawful : Ctor.IntercomIdentifier.Lawful := by
  intro kv kt e ok
  refine .select [("siteNumber", .int 0), ("applicationNumber", .int 0), ("referenceNumber", .int 0), ("intercomNumber", .int 0)] (by simp) e ?_
  exact .cast (IntercomIdentifier.builds ((attrOf "siteNumber" kv).getD (.sc (.int 0)), (attrOf "siteNumber" kt).getD (.sc (.int 0))) ((attrOf "applicationNumber" kv).getD (.sc (.int 0)), (attrOf "applicationNumber" kt).getD (.sc (.int 0))) ((attrOf "referenceNumber" kv).getD (.sc (.int 0)), (attrOf "referenceNumber" kt).getD (.sc (.int 0))) ((attrOf "intercomNumber" kv).getD (.sc (.int 0)), (attrOf "intercomNumber" kt).getD (.sc (.int 0)))) (by
    simp [Ctor.built, Ctor.IntercomIdentifier, HeapClass.IntercomIdentifier, InPlace.value, InPlace.IntercomIdentifier, Codec.IntercomIdentifier, IntercomIdentifier.init, Param.put, Tree.change, value_asIs, value_orFresh, value_copy, Tree.or_list, IntercomIdentifier.members, Tree.ints, Tree.objs, Tree.optInt, Tree.optObj, Tree.intOr, Tree.optFloat, Tree.noneOr, IntercomParametersValue.tree])

theorem StorageFuel.builds (fuelQuantity fuelMeasurementUnits fuelType fuelLocation : Val × Tree) :
    Builds (StorageFuel.newHeap fuelQuantity.1 fuelMeasurementUnits.1 fuelType.1 fuelLocation.1) [fuelQuantity, fuelMeasurementUnits, fuelType, fuelLocation]
      (.obj [("fuelQuantity", fuelQuantity.2), ("fuelMeasurementUnits", fuelMeasurementUnits.2),
      ("fuelType", fuelType.2), ("fuelLocation", fuelLocation.2), ("padding", .sc (.int 0))]) := by
  have a : Fills (fun self => StorageFuel.initHeap self fuelQuantity.1 fuelMeasurementUnits.1 fuelType.1 fuelLocation.1) [fuelQuantity, fuelMeasurementUnits, fuelType, fuelLocation]
      (([("fuelQuantity", .sc .absent), ("fuelMeasurementUnits", .sc .absent), ("fuelType", .sc .absent), ("fuelLocation", .sc .absent), ("padding", .sc .absent)] : List (String × Tree)) ++ []) []
      [("fuelQuantity", fuelQuantity.2), ("fuelMeasurementUnits", fuelMeasurementUnits.2),
      ("fuelType", fuelType.2), ("fuelLocation", fuelLocation.2), ("padding", .sc (.int 0))] := by
    unfold StorageFuel.initHeap
    refine .bind (.arg (p := fuelQuantity) (by simp [attrOf_putAttr_isSome, attrOf, StorageFuel.members])) ?_
    refine .bind (.arg (p := fuelMeasurementUnits) (by simp [attrOf_putAttr_isSome, attrOf, StorageFuel.members])) ?_
    refine .bind (.arg (p := fuelType) (by simp [attrOf_putAttr_isSome, attrOf, StorageFuel.members])) ?_
    refine .bind (.arg (p := fuelLocation) (by simp [attrOf_putAttr_isSome, attrOf, StorageFuel.members])) ?_
    exact .cast (.inits (.set' (by simp [attrOf_putAttr_isSome, attrOf, StorageFuel.members])))
      (by simp [putAttr, StorageFuel.members, Tree.ints, Tree.objs, Tree.optInt, Tree.optObj, Tree.intOr, Tree.optFloat, Tree.noneOr, IntercomParametersValue.tree])
  exact .new a

theorem Ctor.StorageFuel.lawful : Ctor.StorageFuel.Lawful := by
  intro kv kt e ok
  refine .select [("fuelQuantity", .int 0), ("fuelMeasurementUnits", .int 0), ("fuelType", .int 0), ("fuelLocation", .int 0)] (by simp) e ?_
  exact .cast (StorageFuel.builds ((attrOf "fuelQuantity" kv).getD (.sc (.int 0)), (attrOf "fuelQuantity" kt).getD (.sc (.int 0))) ((attrOf "fuelMeasurementUnits" kv).getD (.sc (.int 0)), (attrOf "fuelMeasurementUnits" kt).getD (.sc (.int 0))) ((attrOf "fuelType" kv).getD (.sc (.int 0)), (attrOf "fuelType" kt).getD (.sc (.int 0))) ((attrOf "fuelLocation" kv).getD (.sc (.int 0)), (attrOf "fuelLocation" kt).getD (.sc (.int 0)))) (by
    simp [Ctor.built, Ctor.StorageFuel, HeapClass.StorageFuel, InPlace.value, InPlace.StorageFuel, Codec.StorageFuel, StorageFuel.init, Param.put, Tree.change, value_asIs, value_orFresh, value_copy, Tree.or_list, StorageFuel.members, Tree.ints, Tree.objs, Tree.optInt, Tree.optObj, Tree.intOr, Tree.optFloat, Tree.noneOr, IntercomParametersValue.tree])

theorem Sensor.builds (sensorTypeSource sensorOnOffStatus sensorType station quantity : Val × Tree) :
    Builds (Sensor.newHeap sensorTypeSource.1 sensorOnOffStatus.1 sensorType.1 station.1 quantity.1) [sensorTypeSource, sensorOnOffStatus, sensorType, station, quantity]
      (.obj [("sensorTypeSource", sensorTypeSource.2), ("sensorOnOffStatus", sensorOnOffStatus.2),
      ("sensorType", sensorType.2), ("station", station.2), ("quantity", quantity.2),
      ("padding", .sc (.int 0))]) := by
  have a : Fills (fun self => Sensor.initHeap self sensorTypeSource.1 sensorOnOffStatus.1 sensorType.1 station.1 quantity.1) [sensorTypeSource, sensorOnOffStatus, sensorType, station, quantity]
      (([("sensorTypeSource", .sc .absent), ("sensorOnOffStatus", .sc .absent), ("sensorType", .sc .absent), ("station", .sc .absent), ("quantity", .sc .absent), ("padding", .sc .absent)] : List (String × Tree)) ++ []) []
      [("sensorTypeSource", sensorTypeSource.2), ("sensorOnOffStatus", sensorOnOffStatus.2),
      ("sensorType", sensorType.2), ("station", station.2), ("quantity", quantity.2),
      ("padding", .sc (.int 0))] := by
    unfold Sensor.initHeap
    refine .bind (.arg (p := sensorTypeSource) (by simp [attrOf_putAttr_isSome, attrOf, Sensor.members])) ?_
    refine .bind (.arg (p := sensorOnOffStatus) (by simp [attrOf_putAttr_isSome, attrOf, Sensor.members])) ?_
    refine .bind (.arg (p := sensorType) (by simp [attrOf_putAttr_isSome, attrOf, Sensor.members])) ?_
    refine .bind (.arg (p := station) (by simp [attrOf_putAttr_isSome, attrOf, Sensor.members])) ?_
    refine .bind (.arg (p := quantity) (by simp [attrOf_putAttr_isSome, attrOf, Sensor.members])) ?_
    exact .cast (.inits (.set' (by simp [attrOf_putAttr_isSome, attrOf, Sensor.members])))
      (by simp [putAttr, Sensor.members, Tree.ints, Tree.objs, Tree.optInt, Tree.optObj, Tree.intOr, Tree.optFloat, Tree.noneOr, IntercomParametersValue.tree])
  exact .new a

theorem Ctor.Sensor.lawful : Ctor.Sensor.Lawful := by
  intro kv kt e ok
  refine .select [("sensorTypeSource", .int 0), ("sensorOnOffStatus", .int 0), ("sensorType", .int 0), ("station", .int 0), ("quantity", .int 0)] (by simp) e ?_
  exact .cast (Sensor.builds ((attrOf "sensorTypeSource" kv).getD (.sc (.int 0)), (attrOf "sensorTypeSource" kt).getD (.sc (.int 0))) ((attrOf "sensorOnOffStatus" kv).getD (.sc (.int 0)), (attrOf "sensorOnOffStatus" kt).getD (.sc (.int 0))) ((attrOf "sensorType" kv).getD (.sc (.int 0)), (attrOf "sensorType" kt).getD (.sc (.int 0))) ((attrOf "station" kv).getD (.sc (.int 0)), (attrOf "station" kt).getD (.sc (.int 0))) ((attrOf "quantity" kv).getD (.sc (.int 0)), (attrOf "quantity" kt).getD (.sc (.int 0)))) (by
    simp [Ctor.built, Ctor.Sensor, HeapClass.Sensor, InPlace.value, InPlace.Sensor, Codec.Sensor, Sensor.init, Param.put, Tree.change, value_asIs, value_orFresh, value_copy, Tree.or_list, Sensor.members, Tree.ints, Tree.objs, Tree.optInt, Tree.optObj, Tree.intOr, Tree.optFloat, Tree.noneOr, IntercomParametersValue.tree])

theorem MunitionReload.builds (munitionType station standardQuantity maximumQuantity standardQuantityReloadTime maximumQuantityReloadTime : Val × Tree) :
    Builds (MunitionReload.newHeap munitionType.1 station.1 standardQuantity.1 maximumQuantity.1 standardQuantityReloadTime.1 maximumQuantityReloadTime.1) [munitionType, station, standardQuantity, maximumQuantity, standardQuantityReloadTime, maximumQuantityReloadTime]
      (.obj [("munitionType", munitionType.2.or (.obj (EntityType.members EntityType.init))), ("station", station.2),
      ("standardQuantity", standardQuantity.2), ("maximumQuantity", maximumQuantity.2),
      ("standardQuantityReloadTime", standardQuantityReloadTime.2),
      ("maximumQuantityReloadTime", maximumQuantityReloadTime.2)]) := by
  have a : Fills (fun self => MunitionReload.initHeap self munitionType.1 station.1 standardQuantity.1 maximumQuantity.1 standardQuantityReloadTime.1 maximumQuantityReloadTime.1) [munitionType, station, standardQuantity, maximumQuantity, standardQuantityReloadTime, maximumQuantityReloadTime]
      (([("munitionType", .sc .absent), ("station", .sc .absent), ("standardQuantity", .sc .absent), ("maximumQuantity", .sc .absent), ("standardQuantityReloadTime", .sc .absent), ("maximumQuantityReloadTime", .sc .absent)] : List (String × Tree)) ++ []) []
      [("munitionType", munitionType.2.or (.obj (EntityType.members EntityType.init))), ("station", station.2),
      ("standardQuantity", standardQuantity.2), ("maximumQuantity", maximumQuantity.2),
      ("standardQuantityReloadTime", standardQuantityReloadTime.2),
      ("maximumQuantityReloadTime", maximumQuantityReloadTime.2)] := by
    unfold MunitionReload.initHeap
    refine .bind (.or (p := munitionType) EntityType.makesNew (by simp [attrOf_putAttr_isSome, attrOf, MunitionReload.members])) ?_
    refine .bind (.arg (p := station) (by simp [attrOf_putAttr_isSome, attrOf, MunitionReload.members])) ?_
    refine .bind (.arg (p := standardQuantity) (by simp [attrOf_putAttr_isSome, attrOf, MunitionReload.members])) ?_
    refine .bind (.arg (p := maximumQuantity) (by simp [attrOf_putAttr_isSome, attrOf, MunitionReload.members])) ?_
    refine .bind (.arg (p := standardQuantityReloadTime) (by simp [attrOf_putAttr_isSome, attrOf, MunitionReload.members])) ?_
    exact .cast (.arg (p := maximumQuantityReloadTime) (by simp [attrOf_putAttr_isSome, attrOf, MunitionReload.members]))
      (by simp [putAttr, MunitionReload.members, Tree.ints, Tree.objs, Tree.optInt, Tree.optObj, Tree.intOr, Tree.optFloat, Tree.noneOr, IntercomParametersValue.tree])
  exact .new a

theorem Ctor.MunitionReload.lawful : Ctor.MunitionReload.Lawful := by
  intro kv kt e ok
  refine .select [("munitionType", .none), ("station", .int 0), ("standardQuantity", .int 0), ("maximumQuantity", .int 0), ("standardQuantityReloadTime", .int 0), ("maximumQuantityReloadTime", .int 0)] (by simp) e ?_
  exact .cast (MunitionReload.builds ((attrOf "munitionType" kv).getD (.sc (.none)), (attrOf "munitionType" kt).getD (.sc (.none))) ((attrOf "station" kv).getD (.sc (.int 0)), (attrOf "station" kt).getD (.sc (.int 0))) ((attrOf "standardQuantity" kv).getD (.sc (.int 0)), (attrOf "standardQuantity" kt).getD (.sc (.int 0))) ((attrOf "maximumQuantity" kv).getD (.sc (.int 0)), (attrOf "maximumQuantity" kt).getD (.sc (.int 0))) ((attrOf "standardQuantityReloadTime" kv).getD (.sc (.int 0)), (attrOf "standardQuantityReloadTime" kt).getD (.sc (.int 0))) ((attrOf "maximumQuantityReloadTime" kv).getD (.sc (.int 0)), (attrOf "maximumQuantityReloadTime" kt).getD (.sc (.int 0)))) (by
    simp [Ctor.built, Ctor.MunitionReload, HeapClass.MunitionReload, InPlace.value, InPlace.MunitionReload, Codec.MunitionReload, MunitionReload.init, Param.put, Tree.change, value_asIs, value_orFresh, value_copy, Tree.or_list, MunitionReload.members, Tree.ints, Tree.objs, Tree.optInt, Tree.optObj, Tree.intOr, Tree.optFloat, Tree.noneOr, IntercomParametersValue.tree])

theorem StorageFuelReload.builds (standardQuantity maximumQuantity standardQuantityReloadTime maximumQuantityReloadTime fuelMeasurementUnits fuelType fuelLocation : Val × Tree) :
    Builds (StorageFuelReload.newHeap standardQuantity.1 maximumQuantity.1 standardQuantityReloadTime.1 maximumQuantityReloadTime.1 fuelMeasurementUnits.1 fuelType.1 fuelLocation.1) [standardQuantity, maximumQuantity, standardQuantityReloadTime, maximumQuantityReloadTime, fuelMeasurementUnits, fuelType, fuelLocation]
      (.obj [("standardQuantity", standardQuantity.2), ("maximumQuantity", maximumQuantity.2),
      ("standardQuantityReloadTime", standardQuantityReloadTime.2),
      ("maximumQuantityReloadTime", maximumQuantityReloadTime.2),
      ("fuelMeasurementUnits", fuelMeasurementUnits.2), ("fuelType", fuelType.2),
      ("fuelLocation", fuelLocation.2), ("padding", .sc (.int 0))]) := by
  have a : Fills (fun self => StorageFuelReload.initHeap self standardQuantity.1 maximumQuantity.1 standardQuantityReloadTime.1 maximumQuantityReloadTime.1 fuelMeasurementUnits.1 fuelType.1 fuelLocation.1) [standardQuantity, maximumQuantity, standardQuantityReloadTime, maximumQuantityReloadTime, fuelMeasurementUnits, fuelType, fuelLocation]
      (([("standardQuantity", .sc .absent), ("maximumQuantity", .sc .absent), ("standardQuantityReloadTime", .sc .absent), ("maximumQuantityReloadTime", .sc .absent), ("fuelMeasurementUnits", .sc .absent), ("fuelType", .sc .absent), ("fuelLocation", .sc .absent), ("padding", .sc .absent)] : List (String × Tree)) ++ []) []
      [("standardQuantity", standardQuantity.2), ("maximumQuantity", maximumQuantity.2),
      ("standardQuantityReloadTime", standardQuantityReloadTime.2),
      ("maximumQuantityReloadTime", maximumQuantityReloadTime.2),
      ("fuelMeasurementUnits", fuelMeasurementUnits.2), ("fuelType", fuelType.2),
      ("fuelLocation", fuelLocation.2), ("padding", .sc (.int 0))] := by
    unfold StorageFuelReload.initHeap
    refine .bind (.arg (p := standardQuantity) (by simp [attrOf_putAttr_isSome, attrOf, StorageFuelReload.members])) ?_
    refine .bind (.arg (p := maximumQuantity) (by simp [attrOf_putAttr_isSome, attrOf, StorageFuelReload.members])) ?_
    refine .bind (.arg (p := standardQuantityReloadTime) (by simp [attrOf_putAttr_isSome, attrOf, StorageFuelReload.members])) ?_
    refine .bind (.arg (p := maximumQuantityReloadTime) (by simp [attrOf_putAttr_isSome, attrOf, StorageFuelReload.members])) ?_
    refine .bind (.arg (p := fuelMeasurementUnits) (by simp [attrOf_putAttr_isSome, attrOf, StorageFuelReload.members])) ?_
    refine .bind (.arg (p := fuelType) (by simp [attrOf_putAttr_isSome, attrOf, StorageFuelReload.members])) ?_
    refine .bind (.arg (p := fuelLocation) (by simp [attrOf_putAttr_isSome, attrOf, StorageFuelReload.members])) ?_
    exact .cast (.inits (.set' (by simp [attrOf_putAttr_isSome, attrOf, StorageFuelReload.members])))
      (by simp [putAttr, StorageFuelReload.members, Tree.ints, Tree.objs, Tree.optInt, Tree.optObj, Tree.intOr, Tree.optFloat, Tree.noneOr, IntercomParametersValue.tree])
  exact .new a

theorem Ctor.StorageFuelReload.lawful : Ctor.StorageFuelReload.Lawful := by
  intro kv kt e ok
  refine .select [("standardQuantity", .int 0), ("maximumQuantity", .int 0), ("standardQuantityReloadTime", .int 0), ("maximumQuantityReloadTime", .int 0), ("fuelMeasurementUnits", .int 0), ("fuelType", .int 0), ("fuelLocation", .int 0)] (by simp) e ?_
  exact .cast (StorageFuelReload.builds ((attrOf "standardQuantity" kv).getD (.sc (.int 0)), (attrOf "standardQuantity" kt).getD (.sc (.int 0))) ((attrOf "maximumQuantity" kv).getD (.sc (.int 0)), (attrOf "maximumQuantity" kt).getD (.sc (.int 0))) ((attrOf "standardQuantityReloadTime" kv).getD (.sc (.int 0)), (attrOf "standardQuantityReloadTime" kt).getD (.sc (.int 0))) ((attrOf "maximumQuantityReloadTime" kv).getD (.sc (.int 0)), (attrOf "maximumQuantityReloadTime" kt).getD (.sc (.int 0))) ((attrOf "fuelMeasurementUnits" kv).getD (.sc (.int 0)), (attrOf "fuelMeasurementUnits" kt).getD (.sc (.int 0))) ((attrOf "fuelType" kv).getD (.sc (.int 0)), (attrOf "fuelType" kt).getD (.sc (.int 0))) ((attrOf "fuelLocation" kv).getD (.sc (.int 0)), (attrOf "fuelLocation" kt).getD (.sc (.int 0)))) (by
    simp [Ctor.built, Ctor.StorageFuelReload, HeapClass.StorageFuelReload, InPlace.value, InPlace.StorageFuelReload, Codec.StorageFuelReload, StorageFuelReload.init, Param.put, Tree.change, value_asIs, value_orFresh, value_copy, Tree.or_list, StorageFuelReload.members, Tree.ints, Tree.objs, Tree.optInt, Tree.optObj, Tree.intOr, Tree.optFloat, Tree.noneOr, IntercomParametersValue.tree])

theorem ExpendableReload.builds (expendable station standardQuantity maximumQuantity standardQuantityReloadTime maximumQuantityReloadTime : Val × Tree) :
    Builds (ExpendableReload.newHeap expendable.1 station.1 standardQuantity.1 maximumQuantity.1 standardQuantityReloadTime.1 maximumQuantityReloadTime.1) [expendable, station, standardQuantity, maximumQuantity, standardQuantityReloadTime, maximumQuantityReloadTime]
      (.obj [("expendable", expendable.2.or (.obj (EntityType.members EntityType.init))), ("station", station.2),
      ("standardQuantity", standardQuantity.2), ("maximumQuantity", maximumQuantity.2),
      ("standardQuantityReloadTime", standardQuantityReloadTime.2),
      ("maximumQuantityReloadTime", maximumQuantityReloadTime.2)]) := by
  have a : Fills (fun self => ExpendableReload.initHeap self expendable.1 station.1 standardQuantity.1 maximumQuantity.1 standardQuantityReloadTime.1 maximumQuantityReloadTime.1) [expendable, station, standardQuantity, maximumQuantity, standardQuantityReloadTime, maximumQuantityReloadTime]
      (([("expendable", .sc .absent), ("station", .sc .absent), ("standardQuantity", .sc .absent), ("maximumQuantity", .sc .absent), ("standardQuantityReloadTime", .sc .absent), ("maximumQuantityReloadTime", .sc .absent)] : List (String × Tree)) ++ []) []
      [("expendable", expendable.2.or (.obj (EntityType.members EntityType.init))), ("station", station.2),
      ("standardQuantity", standardQuantity.2), ("maximumQuantity", maximumQuantity.2),
      ("standardQuantityReloadTime", standardQuantityReloadTime.2),
      ("maximumQuantityReloadTime", maximumQuantityReloadTime.2)] := by
    unfold ExpendableReload.initHeap
    refine .bind (.or (p := expendable) EntityType.makesNew (by simp [attrOf_putAttr_isSome, attrOf, ExpendableReload.members])) ?_
    refine .bind (.arg (p := station) (by simp [attrOf_putAttr_isSome, attrOf, ExpendableReload.members])) ?_
    refine .bind (.arg (p := standardQuantity) (by simp [attrOf_putAttr_isSome, attrOf, ExpendableReload.members])) ?_
    refine .bind (.arg (p := maximumQuantity) (by simp [attrOf_putAttr_isSome, attrOf, ExpendableReload.members])) ?_
    refine .bind (.arg (p := standardQuantityReloadTime) (by simp [attrOf_putAttr_isSome, attrOf, ExpendableReload.members])) ?_
    exact .cast (.arg (p := maximumQuantityReloadTime) (by simp [attrOf_putAttr_isSome, attrOf, ExpendableReload.members]))
      (by simp [putAttr, ExpendableReload.members, Tree.ints, Tree.objs, Tree.optInt, Tree.optObj, Tree.intOr, Tree.optFloat, Tree.noneOr, IntercomParametersValue.tree])
  exact .new a

theorem Ctor.ExpendableReload.lawful : Ctor.ExpendableReload.Lawful := by
  intro kv kt e ok
  refine .select [("expendable", .none), ("station", .int 0), ("standardQuantity", .int 0), ("maximumQuantity", .int 0), ("standardQuantityReloadTime", .int 0), ("maximumQuantityReloadTime", .int 0)] (by simp) e ?_
  exact .cast (ExpendableReload.builds ((attrOf "expendable" kv).getD (.sc (.none)), (attrOf "expendable" kt).getD (.sc (.none))) ((attrOf "station" kv).getD (.sc (.int 0)), (attrOf "station" kt).getD (.sc (.int 0))) ((attrOf "standardQuantity" kv).getD (.sc (.int 0)), (attrOf "standardQuantity" kt).getD (.sc (.int 0))) ((attrOf "maximumQuantity" kv).getD (.sc (.int 0)), (attrOf "maximumQuantity" kt).getD (.sc (.int 0))) ((attrOf "standardQuantityReloadTime" kv).getD (.sc (.int 0)), (attrOf "standardQuantityReloadTime" kt).getD (.sc (.int 0))) ((attrOf "maximumQuantityReloadTime" kv).getD (.sc (.int 0)), (attrOf "maximumQuantityReloadTime" kt).getD (.sc (.int 0)))) (by
    simp [Ctor.built, Ctor.ExpendableReload, HeapClass.ExpendableReload, InPlace.value, InPlace.ExpendableReload, Codec.ExpendableReload, ExpendableReload.init, Param.put, Tree.change, value_asIs, value_orFresh, value_copy, Tree.or_list, ExpendableReload.members, Tree.ints, Tree.objs, Tree.optInt, Tree.optObj, Tree.intOr, Tree.optFloat, Tree.noneOr, IntercomParametersValue.tree])

theorem EngineFuelReload.builds (standardQuantity maximumQuantity standardQuantityReloadTime maximumQuantityReloadTime fuelMeasurementUnits fuelLocation : Val × Tree) :
    Builds (EngineFuelReload.newHeap standardQuantity.1 maximumQuantity.1 standardQuantityReloadTime.1 maximumQuantityReloadTime.1 fuelMeasurementUnits.1 fuelLocation.1) [standardQuantity, maximumQuantity, standardQuantityReloadTime, maximumQuantityReloadTime, fuelMeasurementUnits, fuelLocation]
      (.obj [("standardQuantity", standardQuantity.2), ("maximumQuantity", maximumQuantity.2),
      ("standardQuantityReloadTime", standardQuantityReloadTime.2),
      ("maximumQuantityReloadTime", maximumQuantityReloadTime.2),
      ("fuelMeasurmentUnits", fuelMeasurementUnits.2), ("fuelLocation", fuelLocation.2),
      ("padding", .sc (.int 0))]) := by
  have a : Fills (fun self => EngineFuelReload.initHeap self standardQuantity.1 maximumQuantity.1 standardQuantityReloadTime.1 maximumQuantityReloadTime.1 fuelMeasurementUnits.1 fuelLocation.1) [standardQuantity, maximumQuantity, standardQuantityReloadTime, maximumQuantityReloadTime, fuelMeasurementUnits, fuelLocation]
      (([("standardQuantity", .sc .absent), ("maximumQuantity", .sc .absent), ("standardQuantityReloadTime", .sc .absent), ("maximumQuantityReloadTime", .sc .absent), ("fuelMeasurmentUnits", .sc .absent), ("fuelLocation", .sc .absent), ("padding", .sc .absent)] : List (String × Tree)) ++ []) []
      [("standardQuantity", standardQuantity.2), ("maximumQuantity", maximumQuantity.2),
      ("standardQuantityReloadTime", standardQuantityReloadTime.2),
      ("maximumQuantityReloadTime", maximumQuantityReloadTime.2),
      ("fuelMeasurmentUnits", fuelMeasurementUnits.2), ("fuelLocation", fuelLocation.2),
      ("padding", .sc (.int 0))] := by
    unfold EngineFuelReload.initHeap
    refine .bind (.arg (p := standardQuantity) (by simp [attrOf_putAttr_isSome, attrOf, EngineFuelReload.members])) ?_
    refine .bind (.arg (p := maximumQuantity) (by simp [attrOf_putAttr_isSome, attrOf, EngineFuelReload.members])) ?_
    refine .bind (.arg (p := standardQuantityReloadTime) (by simp [attrOf_putAttr_isSome, attrOf, EngineFuelReload.members])) ?_
    refine .bind (.arg (p := maximumQuantityReloadTime) (by simp [attrOf_putAttr_isSome, attrOf, EngineFuelReload.members])) ?_
    refine .bind (.arg (p := fuelMeasurementUnits) (by simp [attrOf_putAttr_isSome, attrOf, EngineFuelReload.members])) ?_
    refine .bind (.arg (p := fuelLocation) (by simp [attrOf_putAttr_isSome, attrOf, EngineFuelReload.members])) ?_
    exact .cast (.inits (.set' (by simp [attrOf_putAttr_isSome, attrOf, EngineFuelReload.members])))
      (by simp [putAttr, EngineFuelReload.members, Tree.ints, Tree.objs, Tree.optInt, Tree.optObj, Tree.intOr, Tree.optFloat, Tree.noneOr, IntercomParametersValue.tree])
  exact .new a

theorem Ctor.EngineFuelReload.lawful : Ctor.EngineFuelReload.Lawful := by
  intro kv kt e ok
  refine .select [("standardQuantity", .int 0), ("maximumQuantity", .int 0), ("standardQuantityReloadTime", .int 0), ("maximumQuantityReloadTime", .int 0), ("fuelMeasurementUnits", .int 0), ("fuelLocation", .int 0)] (by simp) e ?_
  exact .cast (EngineFuelReload.builds ((attrOf "standardQuantity" kv).getD (.sc (.int 0)), (attrOf "standardQuantity" kt).getD (.sc (.int 0))) ((attrOf "maximumQuantity" kv).getD (.sc (.int 0)), (attrOf "maximumQuantity" kt).getD (.sc (.int 0))) ((attrOf "standardQuantityReloadTime" kv).getD (.sc (.int 0)), (attrOf "standardQuantityReloadTime" kt).getD (.sc (.int 0))) ((attrOf "maximumQuantityReloadTime" kv).getD (.sc (.int 0)), (attrOf "maximumQuantityReloadTime" kt).getD (.sc (.int 0))) ((attrOf "fuelMeasurementUnits" kv).getD (.sc (.int 0)), (attrOf "fuelMeasurementUnits" kt).getD (.sc (.int 0))) ((attrOf "fuelLocation" kv).getD (.sc (.int 0)), (attrOf "fuelLocation" kt).getD (.sc (.int 0)))) (by
    simp [Ctor.built, Ctor.EngineFuelReload, HeapClass.EngineFuelReload, InPlace.value, InPlace.EngineFuelReload, Codec.EngineFuelReload, EngineFuelReload.init, Param.put, Tree.change, value_asIs, value_orFresh, value_copy, Tree.or_list, EngineFuelReload.members, Tree.ints, Tree.objs, Tree.optInt, Tree.optObj, Tree.intOr, Tree.optFloat, Tree.noneOr, IntercomParametersValue.tree])

theorem UnattachedIdentifier.builds (simulationAddress referenceNumber : Val × Tree) :
    Builds (UnattachedIdentifier.newHeap simulationAddress.1 referenceNumber.1) [simulationAddress, referenceNumber]
      (.obj [("simulationAddress", simulationAddress.2.or (.obj (SimulationAddress.members SimulationAddress.init))),
      ("referenceNumber", referenceNumber.2)]) := by
  have a : Fills (fun self => UnattachedIdentifier.initHeap self simulationAddress.1 referenceNumber.1) [simulationAddress, referenceNumber]
      (([("simulationAddress", .sc .absent), ("referenceNumber", .sc .absent)] : List (String × Tree)) ++ []) []
      [("simulationAddress", simulationAddress.2.or (.obj (SimulationAddress.members SimulationAddress.init))),
      ("referenceNumber", referenceNumber.2)] := by
    unfold UnattachedIdentifier.initHeap
    refine .bind (.or (p := simulationAddress) SimulationAddress.makesNew (by simp [attrOf_putAttr_isSome, attrOf, UnattachedIdentifier.members])) ?_
    exact .cast (.arg (p := referenceNumber) (by simp [attrOf_putAttr_isSome, attrOf, UnattachedIdentifier.members]))
      (by simp [putAttr, UnattachedIdentifier.members, Tree.ints, Tree.objs, Tree.optInt, Tree.optObj, Tree.intOr, Tree.optFloat, Tree.noneOr, IntercomParametersValue.tree])
  exact .new a

theorem Ctor.UnattachedIdentifier.lawful : Ctor.UnattachedIdentifier.Lawful := by
  intro kv kt e ok
  refine .select [("simulationAddress", .none), ("referenceNumber", .int 0)] (by simp) e ?_
  exact .cast (UnattachedIdentifier.builds ((attrOf "simulationAddress" kv).getD (.sc (.none)), (attrOf "simulationAddress" kt).getD (.sc (.none))) ((attrOf "referenceNumber" kv).getD (.sc (.int 0)), (attrOf "referenceNumber" kt).getD (.sc (.int 0)))) (by
    simp [Ctor.built, Ctor.UnattachedIdentifier, HeapClass.UnattachedIdentifier, InPlace.value, InPlace.UnattachedIdentifier, Codec.UnattachedIdentifier, UnattachedIdentifier.init, Param.put, Tree.change, value_asIs, value_orFresh, value_copy, Tree.or_list, UnattachedIdentifier.members, Tree.ints, Tree.objs, Tree.optInt, Tree.optObj, Tree.intOr, Tree.optFloat, Tree.noneOr, IntercomParametersValue.tree])

theorem EntityTypeVP.builds (changeIndicator entityType : Val × Tree) :
    Builds (EntityTypeVP.newHeap changeIndicator.1 entityType.1) [changeIndicator, entityType]
      (.obj [("recordType", .sc (.int 3)), ("changeIndicator", changeIndicator.2),
      ("entityType", entityType.2.or (.obj (EntityType.members EntityType.init))), ("padding", .sc (.int 0)),
      ("padding1", .sc (.int 0))]) := by
  have a : Fills (fun self => EntityTypeVP.initHeap self changeIndicator.1 entityType.1) [changeIndicator, entityType]
      (([("recordType", .sc (.int 3)), ("changeIndicator", .sc .absent), ("entityType", .sc .absent), ("padding", .sc .absent), ("padding1", .sc .absent)] : List (String × Tree)) ++ []) []
      [("recordType", .sc (.int 3)), ("changeIndicator", changeIndicator.2),
      ("entityType", entityType.2.or (.obj (EntityType.members EntityType.init))), ("padding", .sc (.int 0)),
      ("padding1", .sc (.int 0))] := by
    unfold EntityTypeVP.initHeap
    refine .bind (.arg (p := changeIndicator) (by simp [attrOf_putAttr_isSome, attrOf, EntityTypeVP.members])) ?_
    refine .bind (.or (p := entityType) EntityType.makesNew (by simp [attrOf_putAttr_isSome, attrOf, EntityTypeVP.members])) ?_
    refine .bind (.inits (.set' (by simp [attrOf_putAttr_isSome, attrOf, EntityTypeVP.members]))) ?_
    exact .cast (.inits (.set' (by simp [attrOf_putAttr_isSome, attrOf, EntityTypeVP.members])))
      (by simp [putAttr, EntityTypeVP.members, Tree.ints, Tree.objs, Tree.optInt, Tree.optObj, Tree.intOr, Tree.optFloat, Tree.noneOr, IntercomParametersValue.tree])
  exact .new a

theorem Ctor.EntityTypeVP.lawful : Ctor.EntityTypeVP.Lawful := by
  intro kv kt e ok
  refine .select [("changeIndicator", .int 0), ("entityType", .none)] (by simp) e ?_
  exact .cast (EntityTypeVP.builds ((attrOf "changeIndicator" kv).getD (.sc (.int 0)), (attrOf "changeIndicator" kt).getD (.sc (.int 0))) ((attrOf "entityType" kv).getD (.sc (.none)), (attrOf "entityType" kt).getD (.sc (.none)))) (by
    simp [Ctor.built, Ctor.EntityTypeVP, HeapClass.EntityTypeVP, InPlace.value, InPlace.EntityTypeVP, Codec.EntityTypeVP, EntityTypeVP.init, Param.put, Tree.change, value_asIs, value_orFresh, value_copy, Tree.or_list, EntityTypeVP.members, Tree.ints, Tree.objs, Tree.optInt, Tree.optObj, Tree.intOr, Tree.optFloat, Tree.noneOr, IntercomParametersValue.tree])

theorem BeamStatus.builds (beamState : Int) :
    Builds (BeamStatus.newHeap beamState) []
      (.obj [("beamState", .sc (.int (beamState % 2)))]) := by
  have a : Fills (fun self => BeamStatus.initHeap self beamState) []
      (([("beamState", .sc .absent)] : List (String × Tree)) ++ []) []
      [("beamState", .sc (.int (beamState % 2)))] := by
    unfold BeamStatus.initHeap
    exact .cast (.inits (.set' (by simp [attrOf_putAttr_isSome, attrOf, BeamStatus.members])))
      (by simp [putAttr, BeamStatus.members, Tree.ints, Tree.objs, Tree.optInt, Tree.optObj, Tree.intOr, Tree.optFloat, Tree.noneOr, IntercomParametersValue.tree])
  exact .new a

theorem Ctor.BeamStatus.lawful : Ctor.BeamStatus.Lawful := by
  intro kv kt e ok
  have run : ∀ v : Int, H.argInt (H.arg kv "beamState" (.int 0)) = Pure.pure v → BeamStatus.callHeap kv = BeamStatus.newHeap v := by
    intro v hv
    simp only [BeamStatus.callHeap, hv]
    rfl
  intro h F s A
  have l : (kv.map (·.2)).length = (kt.map (·.2)).length := by simpa using congrArg List.length e
  unfold HoldsEach at A
  rw [List.map_fst_zip (Nat.le_of_eq l), List.map_snd_zip (Nat.le_of_eq l.symm)] at A
  obtain ⟨F', B, w⟩ := HoldsAll.select [("beamState", .int 0)] (by simp) e A
  have q : ∃ x v, (attrOf "beamState" kt).getD (.sc (.int 0)) = .sc x ∧ H.argInt (.sc x) = Pure.pure v ∧
      Ctor.BeamStatus.built kt = .obj (Dis.BeamStatus.members ⟨v % 2⟩) := by
    cases a : attrOf "beamState" kt with
    | none => exact ⟨_, 0, rfl, rfl, by simp [Ctor.built, Ctor.BeamStatus, Param.put, Tree.change, a, Keeps.value]; rfl⟩
    | some t =>
      rcases ok.suits ⟨"beamState", ["beamState"], .lowBit⟩ (by simp [Ctor.BeamStatus]) t a with ⟨v, rfl⟩ | ⟨b, rfl⟩
      · exact ⟨_, v, rfl, rfl, by simp [Ctor.built, Ctor.BeamStatus, HeapClass.BeamStatus, InPlace.value, InPlace.BeamStatus, Codec.BeamStatus, Param.put, Tree.change, a, Keeps.value, BeamStatus.members]⟩
      · refine ⟨_, _, rfl, rfl, ?_⟩
        simp [Ctor.built, Ctor.BeamStatus, HeapClass.BeamStatus, InPlace.value, InPlace.BeamStatus, Codec.BeamStatus, Param.put, Tree.change, a, Keeps.value, BeamStatus.members]
        cases b <;> rfl
  obtain ⟨x, v, q1, qv, q2⟩ := q
  obtain ⟨G, _, _, C, _, _⟩ := HoldsAll.uncons B
  replace C : Holds h (H.arg kv "beamState" (.int 0)) ((attrOf "beamState" kt).getD (.sc (.int 0))) G := C
  rw [q1] at C
  have q3 : H.argInt (H.arg kv "beamState" (.int 0)) = Pure.pure v := by rw [C.sc_iff, qv]
  obtain ⟨r, h', G, e, C, g⟩ := BeamStatus.builds v h [] s .nil
  refine ⟨r, h', G, ?_, q2 ▸ C, g.fewer (fun _ h => nomatch h) fun _ h => h⟩
  show BeamStatus.callHeap kv h s = _
  rw [run v q3, e]

theorem EnvironmentGeneral.builds (environmentType length index geometry : Val × Tree) :
    Builds (EnvironmentGeneral.newHeap environmentType.1 length.1 index.1 geometry.1) [environmentType, length, index, geometry]
      (.obj [("environmentType", environmentType.2), ("length", length.2), ("index", index.2),
      ("padding", .sc (.int 0)), ("geometry", geometry.2), ("padding2", .sc (.int 0)),
      ("padding1", .sc .absent)]) := by
  have a : Fills (fun self => EnvironmentGeneral.initHeap self environmentType.1 length.1 index.1 geometry.1) [environmentType, length, index, geometry]
      (([("environmentType", .sc .absent), ("length", .sc .absent), ("index", .sc .absent), ("padding", .sc .absent), ("geometry", .sc .absent), ("padding2", .sc .absent), ("padding1", .sc .absent)] : List (String × Tree)) ++ []) []
      [("environmentType", environmentType.2), ("length", length.2), ("index", index.2),
      ("padding", .sc (.int 0)), ("geometry", geometry.2), ("padding2", .sc (.int 0)),
      ("padding1", .sc .absent)] := by
    unfold EnvironmentGeneral.initHeap
    refine .bind (.arg (p := environmentType) (by simp [attrOf_putAttr_isSome, attrOf, EnvironmentGeneral.members])) ?_
    refine .bind (.arg (p := length) (by simp [attrOf_putAttr_isSome, attrOf, EnvironmentGeneral.members])) ?_
    refine .bind (.arg (p := index) (by simp [attrOf_putAttr_isSome, attrOf, EnvironmentGeneral.members])) ?_
    refine .bind (.inits (.set' (by simp [attrOf_putAttr_isSome, attrOf, EnvironmentGeneral.members]))) ?_
    refine .bind (.arg (p := geometry) (by simp [attrOf_putAttr_isSome, attrOf, EnvironmentGeneral.members])) ?_
    exact .cast (.inits (.set' (by simp [attrOf_putAttr_isSome, attrOf, EnvironmentGeneral.members])))
      (by simp [putAttr, EnvironmentGeneral.members, Tree.ints, Tree.objs, Tree.optInt, Tree.optObj, Tree.intOr, Tree.optFloat, Tree.noneOr, IntercomParametersValue.tree])
  exact .new a

theorem Ctor.EnvironmentGeneral.lawful : Ctor.EnvironmentGeneral.Lawful := by
  intro kv kt e ok
  refine .select [("environmentType", .int 0), ("length", .int 0), ("index", .int 0), ("geometry", .none)] (by simp) e ?_
  exact .cast (EnvironmentGeneral.builds ((attrOf "environmentType" kv).getD (.sc (.int 0)), (attrOf "environmentType" kt).getD (.sc (.int 0))) ((attrOf "length" kv).getD (.sc (.int 0)), (attrOf "length" kt).getD (.sc (.int 0))) ((attrOf "index" kv).getD (.sc (.int 0)), (attrOf "index" kt).getD (.sc (.int 0))) ((attrOf "geometry" kv).getD (.sc (.none)), (attrOf "geometry" kt).getD (.sc (.none)))) (by
    simp [Ctor.built, Ctor.EnvironmentGeneral, HeapClass.EnvironmentGeneral, InPlace.value, InPlace.EnvironmentGeneral, Codec.EnvironmentGeneral, EnvironmentGeneral.init, Param.put, Tree.change, value_asIs, value_orFresh, value_copy, Tree.or_list, EnvironmentGeneral.members, Tree.ints, Tree.objs, Tree.optInt, Tree.optObj, Tree.intOr, Tree.optFloat, Tree.noneOr, IntercomParametersValue.tree])

theorem GridAxis.builds (domainInitialXi domainFinalXi domainPointsXi interleafFactor axisType numberOfPointsOnXiAxis initialIndex : Val × Tree) :
    Builds (GridAxis.newHeap domainInitialXi.1 domainFinalXi.1 domainPointsXi.1 interleafFactor.1 axisType.1 numberOfPointsOnXiAxis.1 initialIndex.1) [domainInitialXi, domainFinalXi, domainPointsXi, interleafFactor, axisType, numberOfPointsOnXiAxis, initialIndex]
      (.obj [("domainInitialXi", domainInitialXi.2), ("domainFinalXi", domainFinalXi.2),
      ("domainPointsXi", domainPointsXi.2), ("interleafFactor", interleafFactor.2), ("axisType", axisType.2),
      ("numberOfPointsOnXiAxis", numberOfPointsOnXiAxis.2), ("initialIndex", initialIndex.2)]) := by
  have a : Fills (fun self => GridAxis.initHeap self domainInitialXi.1 domainFinalXi.1 domainPointsXi.1 interleafFactor.1 axisType.1 numberOfPointsOnXiAxis.1 initialIndex.1) [domainInitialXi, domainFinalXi, domainPointsXi, interleafFactor, axisType, numberOfPointsOnXiAxis, initialIndex]
      (([("domainInitialXi", .sc .absent), ("domainFinalXi", .sc .absent), ("domainPointsXi", .sc .absent), ("interleafFactor", .sc .absent), ("axisType", .sc .absent), ("numberOfPointsOnXiAxis", .sc .absent), ("initialIndex", .sc .absent)] : List (String × Tree)) ++ []) []
      [("domainInitialXi", domainInitialXi.2), ("domainFinalXi", domainFinalXi.2),
      ("domainPointsXi", domainPointsXi.2), ("interleafFactor", interleafFactor.2), ("axisType", axisType.2),
      ("numberOfPointsOnXiAxis", numberOfPointsOnXiAxis.2), ("initialIndex", initialIndex.2)] := by
    unfold GridAxis.initHeap
    refine .bind (.arg (p := domainInitialXi) (by simp [attrOf_putAttr_isSome, attrOf, GridAxis.members])) ?_
    refine .bind (.arg (p := domainFinalXi) (by simp [attrOf_putAttr_isSome, attrOf, GridAxis.members])) ?_
    refine .bind (.arg (p := domainPointsXi) (by simp [attrOf_putAttr_isSome, attrOf, GridAxis.members])) ?_
    refine .bind (.arg (p := interleafFactor) (by simp [attrOf_putAttr_isSome, attrOf, GridAxis.members])) ?_
    refine .bind (.arg (p := axisType) (by simp [attrOf_putAttr_isSome, attrOf, GridAxis.members])) ?_
    refine .bind (.arg (p := numberOfPointsOnXiAxis) (by simp [attrOf_putAttr_isSome, attrOf, GridAxis.members])) ?_
    exact .cast (.arg (p := initialIndex) (by simp [attrOf_putAttr_isSome, attrOf, GridAxis.members]))
      (by simp [putAttr, GridAxis.members, Tree.ints, Tree.objs, Tree.optInt, Tree.optObj, Tree.intOr, Tree.optFloat, Tree.noneOr, IntercomParametersValue.tree])
  exact .new a

theorem Ctor.GridAxis.lawful : Ctor.GridAxis.Lawful := by
  intro kv kt e ok
  refine .select [("domainInitialXi", .float 0x0000000000000000), ("domainFinalXi", .float 0x0000000000000000), ("domainPointsXi", .int 0), ("interleafFactor", .int 0), ("axisType", .int 0), ("numberOfPointsOnXiAxis", .int 0), ("initialIndex", .int 0)] (by simp) e ?_
  exact .cast (GridAxis.builds ((attrOf "domainInitialXi" kv).getD (.sc (.float 0x0000000000000000)), (attrOf "domainInitialXi" kt).getD (.sc (.float 0x0000000000000000))) ((attrOf "domainFinalXi" kv).getD (.sc (.float 0x0000000000000000)), (attrOf "domainFinalXi" kt).getD (.sc (.float 0x0000000000000000))) ((attrOf "domainPointsXi" kv).getD (.sc (.int 0)), (attrOf "domainPointsXi" kt).getD (.sc (.int 0))) ((attrOf "interleafFactor" kv).getD (.sc (.int 0)), (attrOf "interleafFactor" kt).getD (.sc (.int 0))) ((attrOf "axisType" kv).getD (.sc (.int 0)), (attrOf "axisType" kt).getD (.sc (.int 0))) ((attrOf "numberOfPointsOnXiAxis" kv).getD (.sc (.int 0)), (attrOf "numberOfPointsOnXiAxis" kt).getD (.sc (.int 0))) ((attrOf "initialIndex" kv).getD (.sc (.int 0)), (attrOf "initialIndex" kt).getD (.sc (.int 0)))) (by
    simp [Ctor.built, Ctor.GridAxis, HeapClass.GridAxis, InPlace.value, InPlace.GridAxis, Codec.GridAxis, GridAxis.init, Param.put, Tree.change, value_asIs, value_orFresh, value_copy, Tree.or_list, GridAxis.members, Tree.ints, Tree.objs, Tree.optInt, Tree.optObj, Tree.intOr, Tree.optFloat, Tree.noneOr, IntercomParametersValue.tree])

theorem RecordSpecification.builds (recordSets : Val × Tree) :
    Builds (RecordSpecification.newHeap recordSets.1) [recordSets]
      (.obj [("recordSets", recordSets.2.or (.list []))]) := by
  have a : Fills (fun self => RecordSpecification.initHeap self recordSets.1) [recordSets]
      (([("recordSets", .sc .absent)] : List (String × Tree)) ++ []) []
      [("recordSets", recordSets.2.or (.list []))] := by
    unfold RecordSpecification.initHeap
    exact .cast (.or (p := recordSets) .empty (by simp [attrOf_putAttr_isSome, attrOf, RecordSpecification.members]))
      (by simp [putAttr, RecordSpecification.members, Tree.ints, Tree.objs, Tree.optInt, Tree.optObj, Tree.intOr, Tree.optFloat, Tree.noneOr, IntercomParametersValue.tree])
  exact .new a

theorem Ctor.RecordSpecification.lawful : Ctor.RecordSpecification.Lawful := by
  intro kv kt e ok
  refine .select [("recordSets", .none)] (by simp) e ?_
  exact .cast (RecordSpecification.builds ((attrOf "recordSets" kv).getD (.sc (.none)), (attrOf "recordSets" kt).getD (.sc (.none)))) (by
    simp [Ctor.built, Ctor.RecordSpecification, HeapClass.RecordSpecification, InPlace.value, InPlace.RecordSpecification, Codec.RecordSpecification, RecordSpecification.init, Param.put, Tree.change, value_asIs, value_orFresh, value_copy, Tree.or_list, RecordSpecification.members, Tree.ints, Tree.objs, Tree.optInt, Tree.optObj, Tree.intOr, Tree.optFloat, Tree.noneOr, IntercomParametersValue.tree])

theorem EventIdentifierLiveEntity.builds (siteNumber applicationNumber eventNumber : Val × Tree) :
    Builds (EventIdentifierLiveEntity.newHeap siteNumber.1 applicationNumber.1 eventNumber.1) [siteNumber, applicationNumber, eventNumber]
      (.obj [("siteNumber", siteNumber.2), ("applicationNumber", applicationNumber.2), ("eventNumber", eventNumber.2)]) := by
  have a : Fills (fun self => EventIdentifierLiveEntity.initHeap self siteNumber.1 applicationNumber.1 eventNumber.1) [siteNumber, applicationNumber, eventNumber]
      (([("siteNumber", .sc .absent), ("applicationNumber", .sc .absent), ("eventNumber", .sc .absent)] : List (String × Tree)) ++ []) []
      [("siteNumber", siteNumber.2), ("applicationNumber", applicationNumber.2), ("eventNumber", eventNumber.2)] := by
    unfold EventIdentifierLiveEntity.initHeap
    refine .bind (.arg (p := siteNumber) (by simp [attrOf_putAttr_isSome, attrOf, EventIdentifierLiveEntity.members])) ?_
    refine .bind (.arg (p := applicationNumber) (by simp [attrOf_putAttr_isSome, attrOf, EventIdentifierLiveEntity.members])) ?_
    exact .cast (.arg (p := eventNumber) (by simp [attrOf_putAttr_isSome, attrOf, EventIdentifierLiveEntity.members]))
      (by simp [putAttr, EventIdentifierLiveEntity.members, Tree.ints, Tree.objs, Tree.optInt, Tree.optObj, Tree.intOr, Tree.optFloat, Tree.noneOr, IntercomParametersValue.tree])
  exact .new a

theorem Ctor.EventIdentifierLiveEntity.lawful : Ctor.EventIdentifierLiveEntity.Lawful := by
  intro kv kt e ok
  refine .select [("siteNumber", .int 0), ("applicationNumber", .int 0), ("eventNumber", .int 0)] (by simp) e ?_
  exact .cast (EventIdentifierLiveEntity.builds ((attrOf "siteNumber" kv).getD (.sc (.int 0)), (attrOf "siteNumber" kt).getD (.sc (.int 0))) ((attrOf "applicationNumber" kv).getD (.sc (.int 0)), (attrOf "applicationNumber" kt).getD (.sc (.int 0))) ((attrOf "eventNumber" kv).getD (.sc (.int 0)), (attrOf "eventNumber" kt).getD (.sc (.int 0)))) (by
    simp [Ctor.built, Ctor.EventIdentifierLiveEntity, HeapClass.EventIdentifierLiveEntity, InPlace.value, InPlace.EventIdentifierLiveEntity, Codec.EventIdentifierLiveEntity, EventIdentifierLiveEntity.init, Param.put, Tree.change, value_asIs, value_orFresh, value_copy, Tree.or_list, EventIdentifierLiveEntity.members, Tree.ints, Tree.objs, Tree.optInt, Tree.optObj, Tree.intOr, Tree.optFloat, Tree.noneOr, IntercomParametersValue.tree])

theorem ExpendableDescriptor.builds (expendableType : Val × Tree) :
    Builds (ExpendableDescriptor.newHeap expendableType.1) [expendableType]
      (.obj [("expendableType", expendableType.2.or (.obj (EntityType.members EntityType.init))),
      ("padding", .sc (.int 0))]) := by
  have a : Fills (fun self => ExpendableDescriptor.initHeap self expendableType.1) [expendableType]
      (([("expendableType", .sc .absent), ("padding", .sc .absent)] : List (String × Tree)) ++ []) []
      [("expendableType", expendableType.2.or (.obj (EntityType.members EntityType.init))),
      ("padding", .sc (.int 0))] := by
    unfold ExpendableDescriptor.initHeap
    refine .bind (.or (p := expendableType) EntityType.makesNew (by simp [attrOf_putAttr_isSome, attrOf, ExpendableDescriptor.members])) ?_
    exact .cast (.inits (.set' (by simp [attrOf_putAttr_isSome, attrOf, ExpendableDescriptor.members])))
      (by simp [putAttr, ExpendableDescriptor.members, Tree.ints, Tree.objs, Tree.optInt, Tree.optObj, Tree.intOr, Tree.optFloat, Tree.noneOr, IntercomParametersValue.tree])
  exact .new a

theorem Ctor.ExpendableDescriptor.lawful : Ctor.ExpendableDescriptor.Lawful := by
  intro kv kt e ok
  refine .select [("expendableType", .none)] (by simp) e ?_
  exact .cast (ExpendableDescriptor.builds ((attrOf "expendableType" kv).getD (.sc (.none)), (attrOf "expendableType" kt).getD (.sc (.none)))) (by
    simp [Ctor.built, Ctor.ExpendableDescriptor, HeapClass.ExpendableDescriptor, InPlace.value, InPlace.ExpendableDescriptor, Codec.ExpendableDescriptor, ExpendableDescriptor.init, Param.put, Tree.change, value_asIs, value_orFresh, value_copy, Tree.or_list, ExpendableDescriptor.members, Tree.ints, Tree.objs, Tree.optInt, Tree.optObj, Tree.intOr, Tree.optFloat, Tree.noneOr, IntercomParametersValue.tree])

theorem PropulsionSystemData.builds (powerSetting engineRpm : Val × Tree) :
    Builds (PropulsionSystemData.newHeap powerSetting.1 engineRpm.1) [powerSetting, engineRpm]
      (.obj [("powerSetting", powerSetting.2), ("engineRpm", engineRpm.2)]) := by
  have a : Fills (fun self => PropulsionSystemData.initHeap self powerSetting.1 engineRpm.1) [powerSetting, engineRpm]
      (([("powerSetting", .sc .absent), ("engineRpm", .sc .absent)] : List (String × Tree)) ++ []) []
      [("powerSetting", powerSetting.2), ("engineRpm", engineRpm.2)] := by
    unfold PropulsionSystemData.initHeap
    refine .bind (.arg (p := powerSetting) (by simp [attrOf_putAttr_isSome, attrOf, PropulsionSystemData.members])) ?_
    exact .cast (.arg (p := engineRpm) (by simp [attrOf_putAttr_isSome, attrOf, PropulsionSystemData.members]))
      (by simp [putAttr, PropulsionSystemData.members, Tree.ints, Tree.objs, Tree.optInt, Tree.optObj, Tree.intOr, Tree.optFloat, Tree.noneOr, IntercomParametersValue.tree])
  exact .new a

theorem Ctor.PropulsionSystemData.lawful : Ctor.PropulsionSystemData.Lawful := by
  intro kv kt e ok
  refine .select [("powerSetting", .float 0x0000000000000000), ("engineRpm", .float 0x0000000000000000)] (by simp) e ?_
  exact .cast (PropulsionSystemData.builds ((attrOf "powerSetting" kv).getD (.sc (.float 0x0000000000000000)), (attrOf "powerSetting" kt).getD (.sc (.float 0x0000000000000000))) ((attrOf "engineRpm" kv).getD (.sc (.float 0x0000000000000000)), (attrOf "engineRpm" kt).getD (.sc (.float 0x0000000000000000)))) (by
    simp [Ctor.built, Ctor.PropulsionSystemData, HeapClass.PropulsionSystemData, InPlace.value, InPlace.PropulsionSystemData, Codec.PropulsionSystemData, PropulsionSystemData.init, Param.put, Tree.change, value_asIs, value_orFresh, value_copy, Tree.or_list, PropulsionSystemData.members, Tree.ints, Tree.objs, Tree.optInt, Tree.optObj, Tree.intOr, Tree.optFloat, Tree.noneOr, IntercomParametersValue.tree])

theorem LiveEntityIdentifier.builds (liveSimulationAddress entityNumber : Val × Tree) :
    Builds (LiveEntityIdentifier.newHeap liveSimulationAddress.1 entityNumber.1) [liveSimulationAddress, entityNumber]
      (.obj [("liveSimulationAddress", liveSimulationAddress.2.or (.obj (LiveSimulationAddress.members LiveSimulationAddress.init))),
      ("entityNumber", entityNumber.2)]) := by
  have a : Fills (fun self => LiveEntityIdentifier.initHeap self liveSimulationAddress.1 entityNumber.1) [liveSimulationAddress, entityNumber]
      (([("liveSimulationAddress", .sc .absent), ("entityNumber", .sc .absent)] : List (String × Tree)) ++ []) []
      [("liveSimulationAddress", liveSimulationAddress.2.or (.obj (LiveSimulationAddress.members LiveSimulationAddress.init))),
      ("entityNumber", entityNumber.2)] := by
    unfold LiveEntityIdentifier.initHeap
    refine .bind (.or (p := liveSimulationAddress) LiveSimulationAddress.makesNew (by simp [attrOf_putAttr_isSome, attrOf, LiveEntityIdentifier.members])) ?_
    exact .cast (.arg (p := entityNumber) (by simp [attrOf_putAttr_isSome, attrOf, LiveEntityIdentifier.members]))
      (by simp [putAttr, LiveEntityIdentifier.members, Tree.ints, Tree.objs, Tree.optInt, Tree.optObj, Tree.intOr, Tree.optFloat, Tree.noneOr, IntercomParametersValue.tree])
  exact .new a

theorem Ctor.LiveEntityIdentifier.lawful : Ctor.LiveEntityIdentifier.Lawful := by
  intro kv kt e ok
  refine .select [("liveSimulationAddress", .none), ("entityNumber", .int 0)] (by simp) e ?_
  exact .cast (LiveEntityIdentifier.builds ((attrOf "liveSimulationAddress" kv).getD (.sc (.none)), (attrOf "liveSimulationAddress" kt).getD (.sc (.none))) ((attrOf "entityNumber" kv).getD (.sc (.int 0)), (attrOf "entityNumber" kt).getD (.sc (.int 0)))) (by
    simp [Ctor.built, Ctor.LiveEntityIdentifier, HeapClass.LiveEntityIdentifier, InPlace.value, InPlace.LiveEntityIdentifier, Codec.LiveEntityIdentifier, LiveEntityIdentifier.init, Param.put, Tree.change, value_asIs, value_orFresh, value_copy, Tree.or_list, LiveEntityIdentifier.members, Tree.ints, Tree.objs, Tree.optInt, Tree.optObj, Tree.intOr, Tree.optFloat, Tree.noneOr, IntercomParametersValue.tree])

theorem SeparationVP.builds (reasonForSeparation preEntityIndicator parentEntityID stationLocation : Val × Tree) :
    Builds (SeparationVP.newHeap reasonForSeparation.1 preEntityIndicator.1 parentEntityID.1 stationLocation.1) [reasonForSeparation, preEntityIndicator, parentEntityID, stationLocation]
      (.obj [("recordType", .sc (.int 2)), ("reasonForSeparation", reasonForSeparation.2),
      ("preEntityIndicator", preEntityIndicator.2), ("padding1", .sc (.int 0)),
      ("parentEntityID", parentEntityID.2.or (.obj (EntityIdentifier.members EntityIdentifier.init))),
      ("padding2", .sc (.int 0)),
      ("stationLocation", stationLocation.2.or (.obj (NamedLocationIdentification.members NamedLocationIdentification.init)))]) := by
  have a : Fills (fun self => SeparationVP.initHeap self reasonForSeparation.1 preEntityIndicator.1 parentEntityID.1 stationLocation.1) [reasonForSeparation, preEntityIndicator, parentEntityID, stationLocation]
      (([("recordType", .sc (.int 2)), ("reasonForSeparation", .sc .absent), ("preEntityIndicator", .sc .absent), ("padding1", .sc .absent), ("parentEntityID", .sc .absent), ("padding2", .sc .absent), ("stationLocation", .sc .absent)] : List (String × Tree)) ++ []) []
      [("recordType", .sc (.int 2)), ("reasonForSeparation", reasonForSeparation.2),
      ("preEntityIndicator", preEntityIndicator.2), ("padding1", .sc (.int 0)),
      ("parentEntityID", parentEntityID.2.or (.obj (EntityIdentifier.members EntityIdentifier.init))),
      ("padding2", .sc (.int 0)),
      ("stationLocation", stationLocation.2.or (.obj (NamedLocationIdentification.members NamedLocationIdentification.init)))] := by
    unfold SeparationVP.initHeap
    refine .bind (.arg (p := reasonForSeparation) (by simp [attrOf_putAttr_isSome, attrOf, SeparationVP.members])) ?_
    refine .bind (.arg (p := preEntityIndicator) (by simp [attrOf_putAttr_isSome, attrOf, SeparationVP.members])) ?_
    refine .bind (.inits (.set' (by simp [attrOf_putAttr_isSome, attrOf, SeparationVP.members]))) ?_
    refine .bind (.or (p := parentEntityID) EntityIdentifier.makesNew (by simp [attrOf_putAttr_isSome, attrOf, SeparationVP.members])) ?_
    refine .bind (.inits (.set' (by simp [attrOf_putAttr_isSome, attrOf, SeparationVP.members]))) ?_
    exact .cast (.or (p := stationLocation) NamedLocationIdentification.makesNew (by simp [attrOf_putAttr_isSome, attrOf, SeparationVP.members]))
      (by simp [putAttr, SeparationVP.members, Tree.ints, Tree.objs, Tree.optInt, Tree.optObj, Tree.intOr, Tree.optFloat, Tree.noneOr, IntercomParametersValue.tree])
  exact .new a

theorem Ctor.SeparationVP.lawful : Ctor.SeparationVP.Lawful := by
  intro kv kt e ok
  refine .select [("reasonForSeparation", .int 0), ("preEntityIndicator", .int 0), ("parentEntityID", .none), ("stationLocation", .none)] (by simp) e ?_
  exact .cast (SeparationVP.builds ((attrOf "reasonForSeparation" kv).getD (.sc (.int 0)), (attrOf "reasonForSeparation" kt).getD (.sc (.int 0))) ((attrOf "preEntityIndicator" kv).getD (.sc (.int 0)), (attrOf "preEntityIndicator" kt).getD (.sc (.int 0))) ((attrOf "parentEntityID" kv).getD (.sc (.none)), (attrOf "parentEntityID" kt).getD (.sc (.none))) ((attrOf "stationLocation" kv).getD (.sc (.none)), (attrOf "stationLocation" kt).getD (.sc (.none)))) (by
    simp [Ctor.built, Ctor.SeparationVP, HeapClass.SeparationVP, InPlace.value, InPlace.SeparationVP, Codec.SeparationVP, SeparationVP.init, Param.put, Tree.change, value_asIs, value_orFresh, value_copy, Tree.or_list, SeparationVP.members, Tree.ints, Tree.objs, Tree.optInt, Tree.optObj, Tree.intOr, Tree.optFloat, Tree.noneOr, IntercomParametersValue.tree])

theorem EmitterSystem.builds (emitterName emitterFunction emitterIDNumber : Val × Tree) :
    Builds (EmitterSystem.newHeap emitterName.1 emitterFunction.1 emitterIDNumber.1) [emitterName, emitterFunction, emitterIDNumber]
      (.obj [("emitterName", emitterName.2), ("emitterFunction", emitterFunction.2),
      ("emitterIDNumber", emitterIDNumber.2)]) := by
  have a : Fills (fun self => EmitterSystem.initHeap self emitterName.1 emitterFunction.1 emitterIDNumber.1) [emitterName, emitterFunction, emitterIDNumber]
      (([("emitterName", .sc .absent), ("emitterFunction", .sc .absent), ("emitterIDNumber", .sc .absent)] : List (String × Tree)) ++ []) []
      [("emitterName", emitterName.2), ("emitterFunction", emitterFunction.2),
      ("emitterIDNumber", emitterIDNumber.2)] := by
    unfold EmitterSystem.initHeap
    refine .bind (.arg (p := emitterName) (by simp [attrOf_putAttr_isSome, attrOf, EmitterSystem.members])) ?_
    refine .bind (.arg (p := emitterFunction) (by simp [attrOf_putAttr_isSome, attrOf, EmitterSystem.members])) ?_
    exact .cast (.arg (p := emitterIDNumber) (by simp [attrOf_putAttr_isSome, attrOf, EmitterSystem.members]))
      (by simp [putAttr, EmitterSystem.members, Tree.ints, Tree.objs, Tree.optInt, Tree.optObj, Tree.intOr, Tree.optFloat, Tree.noneOr, IntercomParametersValue.tree])
  exact .new a

theorem Ctor.EmitterSystem.lawful : Ctor.EmitterSystem.Lawful := by
  intro kv kt e ok
  refine .select [("emitterName", .int 0), ("emitterFunction", .int 0), ("emitterIDNumber", .int 0)] (by simp) e ?_
  exact .cast (EmitterSystem.builds ((attrOf "emitterName" kv).getD (.sc (.int 0)), (attrOf "emitterName" kt).getD (.sc (.int 0))) ((attrOf "emitterFunction" kv).getD (.sc (.int 0)), (attrOf "emitterFunction" kt).getD (.sc (.int 0))) ((attrOf "emitterIDNumber" kv).getD (.sc (.int 0)), (attrOf "emitterIDNumber" kt).getD (.sc (.int 0)))) (by
    simp [Ctor.built, Ctor.EmitterSystem, HeapClass.EmitterSystem, InPlace.value, InPlace.EmitterSystem, Codec.EmitterSystem, EmitterSystem.init, Param.put, Tree.change, value_asIs, value_orFresh, value_copy, Tree.or_list, EmitterSystem.members, Tree.ints, Tree.objs, Tree.optInt, Tree.optObj, Tree.intOr, Tree.optFloat, Tree.noneOr, IntercomParametersValue.tree])

theorem PduStatus.builds (pduStatus : Val × Tree) :
    Builds (PduStatus.newHeap pduStatus.1) [pduStatus]
      (.obj [("pduStatus", pduStatus.2)]) := by
  have a : Fills (fun self => PduStatus.initHeap self pduStatus.1) [pduStatus]
      (([("pduStatus", .sc .absent)] : List (String × Tree)) ++ []) []
      [("pduStatus", pduStatus.2)] := by
    unfold PduStatus.initHeap
    exact .cast (.arg (p := pduStatus) (by simp [attrOf_putAttr_isSome, attrOf, PduStatus.members]))
      (by simp [putAttr, PduStatus.members, Tree.ints, Tree.objs, Tree.optInt, Tree.optObj, Tree.intOr, Tree.optFloat, Tree.noneOr, IntercomParametersValue.tree])
  exact .new a

theorem Ctor.PduStatus.lawful : Ctor.PduStatus.Lawful := by
  intro kv kt e ok
  refine .select [("pduStatus", .int 0)] (by simp) e ?_
  exact .cast (PduStatus.builds ((attrOf "pduStatus" kv).getD (.sc (.int 0)), (attrOf "pduStatus" kt).getD (.sc (.int 0)))) (by
    simp [Ctor.built, Ctor.PduStatus, HeapClass.PduStatus, InPlace.value, InPlace.PduStatus, Codec.PduStatus, PduStatus.init, Param.put, Tree.change, value_asIs, value_orFresh, value_copy, Tree.or_list, PduStatus.members, Tree.ints, Tree.objs, Tree.optInt, Tree.optObj, Tree.intOr, Tree.optFloat, Tree.noneOr, IntercomParametersValue.tree])

theorem EmissionSystemBeamRecord.builds (beamDataLength beamIDNumber beamParameterIndex fundamentalParameterData beamFunction highDensityTrackJam beamStatus jammingModeSequence trackJamRecords : Val × Tree) :
    Builds (EmissionSystemBeamRecord.newHeap beamDataLength.1 beamIDNumber.1 beamParameterIndex.1 fundamentalParameterData.1 beamFunction.1 highDensityTrackJam.1 beamStatus.1 jammingModeSequence.1 trackJamRecords.1) [beamDataLength, beamIDNumber, beamParameterIndex, fundamentalParameterData, beamFunction, highDensityTrackJam, beamStatus, jammingModeSequence, trackJamRecords]
      (.obj [("beamDataLength", beamDataLength.2), ("beamIDNumber", beamIDNumber.2),
      ("beamParameterIndex", beamParameterIndex.2),
      ("fundamentalParameterData", fundamentalParameterData.2.or (.obj (EEFundamentalParameterData.members EEFundamentalParameterData.init))),
      ("beamFunction", beamFunction.2), ("highDensityTrackJam", highDensityTrackJam.2),
      ("beamStatus", beamStatus.2.or (.obj (BeamStatus.members BeamStatus.init))),
      ("jammingModeSequence", jammingModeSequence.2), ("trackJamRecords", trackJamRecords.2.or (.list []))]) := by
  have a : Fills (fun self => EmissionSystemBeamRecord.initHeap self beamDataLength.1 beamIDNumber.1 beamParameterIndex.1 fundamentalParameterData.1 beamFunction.1 highDensityTrackJam.1 beamStatus.1 jammingModeSequence.1 trackJamRecords.1) [beamDataLength, beamIDNumber, beamParameterIndex, fundamentalParameterData, beamFunction, highDensityTrackJam, beamStatus, jammingModeSequence, trackJamRecords]
      (([("beamDataLength", .sc .absent), ("beamIDNumber", .sc .absent), ("beamParameterIndex", .sc .absent), ("fundamentalParameterData", .sc .absent), ("beamFunction", .sc .absent), ("highDensityTrackJam", .sc .absent), ("beamStatus", .sc .absent), ("jammingModeSequence", .sc .absent), ("trackJamRecords", .sc .absent)] : List (String × Tree)) ++ []) []
      [("beamDataLength", beamDataLength.2), ("beamIDNumber", beamIDNumber.2),
      ("beamParameterIndex", beamParameterIndex.2),
      ("fundamentalParameterData", fundamentalParameterData.2.or (.obj (EEFundamentalParameterData.members EEFundamentalParameterData.init))),
      ("beamFunction", beamFunction.2), ("highDensityTrackJam", highDensityTrackJam.2),
      ("beamStatus", beamStatus.2.or (.obj (BeamStatus.members BeamStatus.init))),
      ("jammingModeSequence", jammingModeSequence.2), ("trackJamRecords", trackJamRecords.2.or (.list []))] := by
    unfold EmissionSystemBeamRecord.initHeap
    refine .bind (.arg (p := beamDataLength) (by simp [attrOf_putAttr_isSome, attrOf, EmissionSystemBeamRecord.members])) ?_
    refine .bind (.arg (p := beamIDNumber) (by simp [attrOf_putAttr_isSome, attrOf, EmissionSystemBeamRecord.members])) ?_
    refine .bind (.arg (p := beamParameterIndex) (by simp [attrOf_putAttr_isSome, attrOf, EmissionSystemBeamRecord.members])) ?_
    refine .bind (.or (p := fundamentalParameterData) EEFundamentalParameterData.makesNew (by simp [attrOf_putAttr_isSome, attrOf, EmissionSystemBeamRecord.members])) ?_
    refine .bind (.arg (p := beamFunction) (by simp [attrOf_putAttr_isSome, attrOf, EmissionSystemBeamRecord.members])) ?_
    refine .bind (.arg (p := highDensityTrackJam) (by simp [attrOf_putAttr_isSome, attrOf, EmissionSystemBeamRecord.members])) ?_
    refine .bind (.or (p := beamStatus) BeamStatus.makesNew (by simp [attrOf_putAttr_isSome, attrOf, EmissionSystemBeamRecord.members])) ?_
    refine .bind (.arg (p := jammingModeSequence) (by simp [attrOf_putAttr_isSome, attrOf, EmissionSystemBeamRecord.members])) ?_
    exact .cast (.or (p := trackJamRecords) .empty (by simp [attrOf_putAttr_isSome, attrOf, EmissionSystemBeamRecord.members]))
      (by simp [putAttr, EmissionSystemBeamRecord.members, Tree.ints, Tree.objs, Tree.optInt, Tree.optObj, Tree.intOr, Tree.optFloat, Tree.noneOr, IntercomParametersValue.tree])
  exact .new a

theorem Ctor.EmissionSystemBeamRecord.lawful : Ctor.EmissionSystemBeamRecord.Lawful := by
  intro kv kt e ok
  refine .select [("beamDataLength", .int 0), ("beamIDNumber", .int 0), ("beamParameterIndex", .int 0), ("fundamentalParameterData", .none), ("beamFunction", .int 0), ("highDensityTrackJam", .int 0), ("beamStatus", .none), ("jammingModeSequence", .int 0), ("trackJamRecords", .none)] (by simp) e ?_
  exact .cast (EmissionSystemBeamRecord.builds ((attrOf "beamDataLength" kv).getD (.sc (.int 0)), (attrOf "beamDataLength" kt).getD (.sc (.int 0))) ((attrOf "beamIDNumber" kv).getD (.sc (.int 0)), (attrOf "beamIDNumber" kt).getD (.sc (.int 0))) ((attrOf "beamParameterIndex" kv).getD (.sc (.int 0)), (attrOf "beamParameterIndex" kt).getD (.sc (.int 0))) ((attrOf "fundamentalParameterData" kv).getD (.sc (.none)), (attrOf "fundamentalParameterData" kt).getD (.sc (.none))) ((attrOf "beamFunction" kv).getD (.sc (.int 0)), (attrOf "beamFunction" kt).getD (.sc (.int 0))) ((attrOf "highDensityTrackJam" kv).getD (.sc (.int 0)), (attrOf "highDensityTrackJam" kt).getD (.sc (.int 0))) ((attrOf "beamStatus" kv).getD (.sc (.none)), (attrOf "beamStatus" kt).getD (.sc (.none))) ((attrOf "jammingModeSequence" kv).getD (.sc (.int 0)), (attrOf "jammingModeSequence" kt).getD (.sc (.int 0))) ((attrOf "trackJamRecords" kv).getD (.sc (.none)), (attrOf "trackJamRecords" kt).getD (.sc (.none)))) (by
    simp [Ctor.built, Ctor.EmissionSystemBeamRecord, HeapClass.EmissionSystemBeamRecord, InPlace.value, InPlace.EmissionSystemBeamRecord, Codec.EmissionSystemBeamRecord, EmissionSystemBeamRecord.init, Param.put, Tree.change, value_asIs, value_orFresh, value_copy, Tree.or_list, EmissionSystemBeamRecord.members, Tree.ints, Tree.objs, Tree.optInt, Tree.optObj, Tree.intOr, Tree.optFloat, Tree.noneOr, IntercomParametersValue.tree])

theorem EmissionSystemRecord.builds (systemDataLength emitterSystem location beamRecords : Val × Tree) :
    Builds (EmissionSystemRecord.newHeap systemDataLength.1 emitterSystem.1 location.1 beamRecords.1) [systemDataLength, emitterSystem, location, beamRecords]
      (.obj [("systemDataLength", systemDataLength.2), ("paddingForEmissionsPdu", .sc (.int 0)),
      ("emitterSystem", emitterSystem.2.or (.obj (EmitterSystem.members EmitterSystem.init))),
      ("location", location.2.or (.obj (Vector3Float.members Vector3Float.init))),
      ("beamRecords", beamRecords.2.or (.list []))]) := by
  have a : Fills (fun self => EmissionSystemRecord.initHeap self systemDataLength.1 emitterSystem.1 location.1 beamRecords.1) [systemDataLength, emitterSystem, location, beamRecords]
      (([("systemDataLength", .sc .absent), ("paddingForEmissionsPdu", .sc .absent), ("emitterSystem", .sc .absent), ("location", .sc .absent), ("beamRecords", .sc .absent)] : List (String × Tree)) ++ []) []
      [("systemDataLength", systemDataLength.2), ("paddingForEmissionsPdu", .sc (.int 0)),
      ("emitterSystem", emitterSystem.2.or (.obj (EmitterSystem.members EmitterSystem.init))),
      ("location", location.2.or (.obj (Vector3Float.members Vector3Float.init))),
      ("beamRecords", beamRecords.2.or (.list []))] := by
    unfold EmissionSystemRecord.initHeap
    refine .bind (.arg (p := systemDataLength) (by simp [attrOf_putAttr_isSome, attrOf, EmissionSystemRecord.members])) ?_
    refine .bind (.inits (.set' (by simp [attrOf_putAttr_isSome, attrOf, EmissionSystemRecord.members]))) ?_
    refine .bind (.or (p := emitterSystem) EmitterSystem.makesNew (by simp [attrOf_putAttr_isSome, attrOf, EmissionSystemRecord.members])) ?_
    refine .bind (.or (p := location) Vector3Float.makesNew (by simp [attrOf_putAttr_isSome, attrOf, EmissionSystemRecord.members])) ?_
    exact .cast (.or (p := beamRecords) .empty (by simp [attrOf_putAttr_isSome, attrOf, EmissionSystemRecord.members]))
      (by simp [putAttr, EmissionSystemRecord.members, Tree.ints, Tree.objs, Tree.optInt, Tree.optObj, Tree.intOr, Tree.optFloat, Tree.noneOr, IntercomParametersValue.tree])
  exact .new a

theorem Ctor.EmissionSystemRecord.lawful : Ctor.EmissionSystemRecord.Lawful := by
  intro kv kt e ok
  refine .select [("systemDataLength", .int 0), ("emitterSystem", .none), ("location", .none), ("beamRecords", .none)] (by simp) e ?_
  exact .cast (EmissionSystemRecord.builds ((attrOf "systemDataLength" kv).getD (.sc (.int 0)), (attrOf "systemDataLength" kt).getD (.sc (.int 0))) ((attrOf "emitterSystem" kv).getD (.sc (.none)), (attrOf "emitterSystem" kt).getD (.sc (.none))) ((attrOf "location" kv).getD (.sc (.none)), (attrOf "location" kt).getD (.sc (.none))) ((attrOf "beamRecords" kv).getD (.sc (.none)), (attrOf "beamRecords" kt).getD (.sc (.none)))) (by
    simp [Ctor.built, Ctor.EmissionSystemRecord, HeapClass.EmissionSystemRecord, InPlace.value, InPlace.EmissionSystemRecord, Codec.EmissionSystemRecord, EmissionSystemRecord.init, Param.put, Tree.change, value_asIs, value_orFresh, value_copy, Tree.or_list, EmissionSystemRecord.members, Tree.ints, Tree.objs, Tree.optInt, Tree.optObj, Tree.intOr, Tree.optFloat, Tree.noneOr, IntercomParametersValue.tree])

theorem EntityStateUpdatePdu.builds (entityID entityLinearVelocity entityLocation entityOrientation entityAppearance variableParameters : Val × Tree) :
    Builds (EntityStateUpdatePdu.newHeap entityID.1 entityLinearVelocity.1 entityLocation.1 entityOrientation.1 entityAppearance.1 variableParameters.1) [entityID, entityLinearVelocity, entityLocation, entityOrientation, entityAppearance, variableParameters]
      (.obj (EntityInformationFamilyPdu.members { pduType := 67, protocolFamily := 1 } ++ ([("entityID", entityID.2.or (.obj (EntityIdentifier.members EntityIdentifier.init))),
      ("padding1", .sc (.int 0)),
      ("entityLinearVelocity", entityLinearVelocity.2.or (.obj (Vector3Float.members Vector3Float.init))),
      ("entityLocation", entityLocation.2.or (.obj (WorldCoordinates.members WorldCoordinates.init))),
      ("entityOrientation", entityOrientation.2.or (.obj (EulerAngles.members EulerAngles.init))),
      ("entityAppearance", entityAppearance.2), ("variableParameters", variableParameters.2.or (.list []))] : List (String × Tree)))) := by
  have a : Fills (fun self => EntityStateUpdatePdu.initHeap self entityID.1 entityLinearVelocity.1 entityLocation.1 entityOrientation.1 entityAppearance.1 variableParameters.1) [entityID, entityLinearVelocity, entityLocation, entityOrientation, entityAppearance, variableParameters]
      (([("protocolVersion", .sc .absent), ("exerciseID", .sc .absent), ("pduType", .sc (.int 67)), ("protocolFamily", .sc (.int 1)), ("timestamp", .sc .absent), ("length", .sc .absent)] : List (String × Tree)) ++
      (([("pduStatus", .sc .absent), ("padding", .sc .absent)] : List (String × Tree)) ++
      ([] ++
      (([("entityID", .sc .absent), ("padding1", .sc .absent), ("entityLinearVelocity", .sc .absent), ("entityLocation", .sc .absent), ("entityOrientation", .sc .absent), ("entityAppearance", .sc .absent), ("variableParameters", .sc .absent)] : List (String × Tree)) ++ [])))) []
      (EntityInformationFamilyPdu.members { pduType := 67, protocolFamily := 1 } ++ ([("entityID", entityID.2.or (.obj (EntityIdentifier.members EntityIdentifier.init))),
      ("padding1", .sc (.int 0)),
      ("entityLinearVelocity", entityLinearVelocity.2.or (.obj (Vector3Float.members Vector3Float.init))),
      ("entityLocation", entityLocation.2.or (.obj (WorldCoordinates.members WorldCoordinates.init))),
      ("entityOrientation", entityOrientation.2.or (.obj (EulerAngles.members EulerAngles.init))),
      ("entityAppearance", entityAppearance.2), ("variableParameters", variableParameters.2.or (.list []))] : List (String × Tree))) := by
    unfold EntityStateUpdatePdu.initHeap
    refine .bind (.inits (EntityInformationFamilyPdu.inits 67 1 _)) ?_
    refine .bind (.or (p := entityID) EntityIdentifier.makesNew (by simp [attrOf_putAttr_isSome, attrOf, EntityStateUpdatePdu.members, EntityInformationFamilyPdu.members, Pdu.members, PduSuperclass.members])) ?_
    refine .bind (.inits (.set' (by simp [attrOf_putAttr_isSome, attrOf, EntityStateUpdatePdu.members, EntityInformationFamilyPdu.members, Pdu.members, PduSuperclass.members]))) ?_
    refine .bind (.or (p := entityLinearVelocity) Vector3Float.makesNew (by simp [attrOf_putAttr_isSome, attrOf, EntityStateUpdatePdu.members, EntityInformationFamilyPdu.members, Pdu.members, PduSuperclass.members])) ?_
    refine .bind (.or (p := entityLocation) WorldCoordinates.makesNew (by simp [attrOf_putAttr_isSome, attrOf, EntityStateUpdatePdu.members, EntityInformationFamilyPdu.members, Pdu.members, PduSuperclass.members])) ?_
    refine .bind (.or (p := entityOrientation) EulerAngles.makesNew (by simp [attrOf_putAttr_isSome, attrOf, EntityStateUpdatePdu.members, EntityInformationFamilyPdu.members, Pdu.members, PduSuperclass.members])) ?_
    refine .bind (.arg (p := entityAppearance) (by simp [attrOf_putAttr_isSome, attrOf, EntityStateUpdatePdu.members, EntityInformationFamilyPdu.members, Pdu.members, PduSuperclass.members])) ?_
    exact .cast (.or (p := variableParameters) .empty (by simp [attrOf_putAttr_isSome, attrOf, EntityStateUpdatePdu.members, EntityInformationFamilyPdu.members, Pdu.members, PduSuperclass.members]))
      (by simp [putAttr, EntityStateUpdatePdu.members, EntityInformationFamilyPdu.members, Pdu.members, PduSuperclass.members, Tree.ints, Tree.objs, Tree.optInt, Tree.optObj, Tree.intOr, Tree.optFloat, Tree.noneOr, IntercomParametersValue.tree])
  exact .new a

theorem Ctor.EntityStateUpdatePdu.lawful : Ctor.EntityStateUpdatePdu.Lawful := by
  intro kv kt e ok
  refine .select [("entityID", .none), ("entityLinearVelocity", .none), ("entityLocation", .none), ("entityOrientation", .none), ("entityAppearance", .int 0), ("variableParameters", .none)] (by simp) e ?_
  exact .cast (EntityStateUpdatePdu.builds ((attrOf "entityID" kv).getD (.sc (.none)), (attrOf "entityID" kt).getD (.sc (.none))) ((attrOf "entityLinearVelocity" kv).getD (.sc (.none)), (attrOf "entityLinearVelocity" kt).getD (.sc (.none))) ((attrOf "entityLocation" kv).getD (.sc (.none)), (attrOf "entityLocation" kt).getD (.sc (.none))) ((attrOf "entityOrientation" kv).getD (.sc (.none)), (attrOf "entityOrientation" kt).getD (.sc (.none))) ((attrOf "entityAppearance" kv).getD (.sc (.int 0)), (attrOf "entityAppearance" kt).getD (.sc (.int 0))) ((attrOf "variableParameters" kv).getD (.sc (.none)), (attrOf "variableParameters" kt).getD (.sc (.none)))) (by
    simp [Ctor.built, Ctor.EntityStateUpdatePdu, HeapClass.EntityStateUpdatePdu, InPlace.value, InPlace.EntityStateUpdatePdu, Codec.EntityStateUpdatePdu, EntityStateUpdatePdu.init, Param.put, Tree.change, value_asIs, value_orFresh, value_copy, Tree.or_list, EntityStateUpdatePdu.members, EntityInformationFamilyPdu.members, Pdu.members, PduSuperclass.members, Tree.ints, Tree.objs, Tree.optInt, Tree.optObj, Tree.intOr, Tree.optFloat, Tree.noneOr, IntercomParametersValue.tree])

theorem ServiceRequestPdu.builds (requestingEntityID servicingEntityID serviceTypeRequested supplies : Val × Tree) :
    Builds (ServiceRequestPdu.newHeap requestingEntityID.1 servicingEntityID.1 serviceTypeRequested.1 supplies.1) [requestingEntityID, servicingEntityID, serviceTypeRequested, supplies]
      (.obj (LogisticsFamilyPdu.members { pduType := 5, protocolFamily := 3 } ++ ([("requestingEntityID", requestingEntityID.2.or (.obj (EntityIdentifier.members EntityIdentifier.init))),
      ("servicingEntityID", servicingEntityID.2.or (.obj (EntityIdentifier.members EntityIdentifier.init))),
      ("serviceTypeRequested", serviceTypeRequested.2), ("serviceRequestPadding", .sc (.int 0)),
      ("supplies", supplies.2.or (.list []))] : List (String × Tree)))) := by
  have a : Fills (fun self => ServiceRequestPdu.initHeap self requestingEntityID.1 servicingEntityID.1 serviceTypeRequested.1 supplies.1) [requestingEntityID, servicingEntityID, serviceTypeRequested, supplies]
      (([("protocolVersion", .sc .absent), ("exerciseID", .sc .absent), ("pduType", .sc (.int 5)), ("protocolFamily", .sc (.int 3)), ("timestamp", .sc .absent), ("length", .sc .absent)] : List (String × Tree)) ++
      (([("pduStatus", .sc .absent), ("padding", .sc .absent)] : List (String × Tree)) ++
      ([] ++
      (([("requestingEntityID", .sc .absent), ("servicingEntityID", .sc .absent), ("serviceTypeRequested", .sc .absent), ("serviceRequestPadding", .sc .absent), ("supplies", .sc .absent)] : List (String × Tree)) ++ [])))) []
      (LogisticsFamilyPdu.members { pduType := 5, protocolFamily := 3 } ++ ([("requestingEntityID", requestingEntityID.2.or (.obj (EntityIdentifier.members EntityIdentifier.init))),
      ("servicingEntityID", servicingEntityID.2.or (.obj (EntityIdentifier.members EntityIdentifier.init))),
      ("serviceTypeRequested", serviceTypeRequested.2), ("serviceRequestPadding", .sc (.int 0)),
      ("supplies", supplies.2.or (.list []))] : List (String × Tree))) := by
    unfold ServiceRequestPdu.initHeap
    refine .bind (.inits (LogisticsFamilyPdu.inits 5 3 _)) ?_
    refine .bind (.or (p := requestingEntityID) EntityIdentifier.makesNew (by simp [attrOf_putAttr_isSome, attrOf, ServiceRequestPdu.members, LogisticsFamilyPdu.members, Pdu.members, PduSuperclass.members])) ?_
    refine .bind (.or (p := servicingEntityID) EntityIdentifier.makesNew (by simp [attrOf_putAttr_isSome, attrOf, ServiceRequestPdu.members, LogisticsFamilyPdu.members, Pdu.members, PduSuperclass.members])) ?_
    refine .bind (.arg (p := serviceTypeRequested) (by simp [attrOf_putAttr_isSome, attrOf, ServiceRequestPdu.members, LogisticsFamilyPdu.members, Pdu.members, PduSuperclass.members])) ?_
    refine .bind (.inits (.set' (by simp [attrOf_putAttr_isSome, attrOf, ServiceRequestPdu.members, LogisticsFamilyPdu.members, Pdu.members, PduSuperclass.members]))) ?_
    exact .cast (.or (p := supplies) .empty (by simp [attrOf_putAttr_isSome, attrOf, ServiceRequestPdu.members, LogisticsFamilyPdu.members, Pdu.members, PduSuperclass.members]))
      (by simp [putAttr, ServiceRequestPdu.members, LogisticsFamilyPdu.members, Pdu.members, PduSuperclass.members, Tree.ints, Tree.objs, Tree.optInt, Tree.optObj, Tree.intOr, Tree.optFloat, Tree.noneOr, IntercomParametersValue.tree])
  exact .new a

theorem Ctor.ServiceRequestPdu.lawful : Ctor.ServiceRequestPdu.Lawful := by
  intro kv kt e ok
  refine .select [("requestingEntityID", .none), ("servicingEntityID", .none), ("serviceTypeRequested", .int 0), ("supplies", .none)] (by simp) e ?_
  exact .cast (ServiceRequestPdu.builds ((attrOf "requestingEntityID" kv).getD (.sc (.none)), (attrOf "requestingEntityID" kt).getD (.sc (.none))) ((attrOf "servicingEntityID" kv).getD (.sc (.none)), (attrOf "servicingEntityID" kt).getD (.sc (.none))) ((attrOf "serviceTypeRequested" kv).getD (.sc (.int 0)), (attrOf "serviceTypeRequested" kt).getD (.sc (.int 0))) ((attrOf "supplies" kv).getD (.sc (.none)), (attrOf "supplies" kt).getD (.sc (.none)))) (by
    simp [Ctor.built, Ctor.ServiceRequestPdu, HeapClass.ServiceRequestPdu, InPlace.value, InPlace.ServiceRequestPdu, Codec.ServiceRequestPdu, ServiceRequestPdu.init, Param.put, Tree.change, value_asIs, value_orFresh, value_copy, Tree.or_list, ServiceRequestPdu.members, LogisticsFamilyPdu.members, Pdu.members, PduSuperclass.members, Tree.ints, Tree.objs, Tree.optInt, Tree.optObj, Tree.intOr, Tree.optFloat, Tree.noneOr, IntercomParametersValue.tree])

theorem RepairCompletePdu.builds (receivingEntityID repairingEntityID repair : Val × Tree) :
    Builds (RepairCompletePdu.newHeap receivingEntityID.1 repairingEntityID.1 repair.1) [receivingEntityID, repairingEntityID, repair]
      (.obj (LogisticsFamilyPdu.members { pduType := 9, protocolFamily := 3 } ++ ([("receivingEntityID", receivingEntityID.2.or (.obj (EntityIdentifier.members EntityIdentifier.init))),
      ("repairingEntityID", repairingEntityID.2.or (.obj (EntityIdentifier.members EntityIdentifier.init))),
      ("repair", repair.2), ("padding4", .sc (.int 0))] : List (String × Tree)))) := by
  have a : Fills (fun self => RepairCompletePdu.initHeap self receivingEntityID.1 repairingEntityID.1 repair.1) [receivingEntityID, repairingEntityID, repair]
      (([("protocolVersion", .sc .absent), ("exerciseID", .sc .absent), ("pduType", .sc (.int 9)), ("protocolFamily", .sc (.int 3)), ("timestamp", .sc .absent), ("length", .sc .absent)] : List (String × Tree)) ++
      (([("pduStatus", .sc .absent), ("padding", .sc .absent)] : List (String × Tree)) ++
      ([] ++
      (([("receivingEntityID", .sc .absent), ("repairingEntityID", .sc .absent), ("repair", .sc .absent), ("padding4", .sc .absent)] : List (String × Tree)) ++ [])))) []
      (LogisticsFamilyPdu.members { pduType := 9, protocolFamily := 3 } ++ ([("receivingEntityID", receivingEntityID.2.or (.obj (EntityIdentifier.members EntityIdentifier.init))),
      ("repairingEntityID", repairingEntityID.2.or (.obj (EntityIdentifier.members EntityIdentifier.init))),
      ("repair", repair.2), ("padding4", .sc (.int 0))] : List (String × Tree))) := by
    unfold RepairCompletePdu.initHeap
    refine .bind (.inits (LogisticsFamilyPdu.inits 9 3 _)) ?_
    refine .bind (.or (p := receivingEntityID) EntityIdentifier.makesNew (by simp [attrOf_putAttr_isSome, attrOf, RepairCompletePdu.members, LogisticsFamilyPdu.members, Pdu.members, PduSuperclass.members])) ?_
    refine .bind (.or (p := repairingEntityID) EntityIdentifier.makesNew (by simp [attrOf_putAttr_isSome, attrOf, RepairCompletePdu.members, LogisticsFamilyPdu.members, Pdu.members, PduSuperclass.members])) ?_
    refine .bind (.arg (p := repair) (by simp [attrOf_putAttr_isSome, attrOf, RepairCompletePdu.members, LogisticsFamilyPdu.members, Pdu.members, PduSuperclass.members])) ?_
    exact .cast (.inits (.set' (by simp [attrOf_putAttr_isSome, attrOf, RepairCompletePdu.members, LogisticsFamilyPdu.members, Pdu.members, PduSuperclass.members])))
      (by simp [putAttr, RepairCompletePdu.members, LogisticsFamilyPdu.members, Pdu.members, PduSuperclass.members, Tree.ints, Tree.objs, Tree.optInt, Tree.optObj, Tree.intOr, Tree.optFloat, Tree.noneOr, IntercomParametersValue.tree])
  exact .new a

theorem Ctor.RepairCompletePdu.lawful : Ctor.RepairCompletePdu.Lawful := by
  intro kv kt e ok
  refine .select [("receivingEntityID", .none), ("repairingEntityID", .none), ("repair", .int 0)] (by simp) e ?_
  exact .cast (RepairCompletePdu.builds ((attrOf "receivingEntityID" kv).getD (.sc (.none)), (attrOf "receivingEntityID" kt).getD (.sc (.none))) ((attrOf "repairingEntityID" kv).getD (.sc (.none)), (attrOf "repairingEntityID" kt).getD (.sc (.none))) ((attrOf "repair" kv).getD (.sc (.int 0)), (attrOf "repair" kt).getD (.sc (.int 0)))) (by
    simp [Ctor.built, Ctor.RepairCompletePdu, HeapClass.RepairCompletePdu, InPlace.value, InPlace.RepairCompletePdu, Codec.RepairCompletePdu, RepairCompletePdu.init, Param.put, Tree.change, value_asIs, value_orFresh, value_copy, Tree.or_list, RepairCompletePdu.members, LogisticsFamilyPdu.members, Pdu.members, PduSuperclass.members, Tree.ints, Tree.objs, Tree.optInt, Tree.optObj, Tree.intOr, Tree.optFloat, Tree.noneOr, IntercomParametersValue.tree])

theorem CollisionPdu.builds (issuingEntityID collidingEntityID eventID collisionType velocity mass location : Val × Tree) :
    Builds (CollisionPdu.newHeap issuingEntityID.1 collidingEntityID.1 eventID.1 collisionType.1 velocity.1 mass.1 location.1) [issuingEntityID, collidingEntityID, eventID, collisionType, velocity, mass, location]
      (.obj (EntityInformationFamilyPdu.members { pduType := 4, protocolFamily := 1 } ++ ([("issuingEntityID", issuingEntityID.2.or (.obj (EntityIdentifier.members EntityIdentifier.init))),
      ("collidingEntityID", collidingEntityID.2.or (.obj (EntityIdentifier.members EntityIdentifier.init))),
      ("eventID", eventID.2.or (.obj (EventIdentifier.members EventIdentifier.init))),
      ("collisionType", collisionType.2), ("pad", .sc (.int 0)),
      ("velocity", velocity.2.or (.obj (Vector3Float.members Vector3Float.init))), ("mass", mass.2),
      ("location", location.2.or (.obj (Vector3Float.members Vector3Float.init)))] : List (String × Tree)))) := by
  have a : Fills (fun self => CollisionPdu.initHeap self issuingEntityID.1 collidingEntityID.1 eventID.1 collisionType.1 velocity.1 mass.1 location.1) [issuingEntityID, collidingEntityID, eventID, collisionType, velocity, mass, location]
      (([("protocolVersion", .sc .absent), ("exerciseID", .sc .absent), ("pduType", .sc (.int 4)), ("protocolFamily", .sc (.int 1)), ("timestamp", .sc .absent), ("length", .sc .absent)] : List (String × Tree)) ++
      (([("pduStatus", .sc .absent), ("padding", .sc .absent)] : List (String × Tree)) ++
      ([] ++
      (([("issuingEntityID", .sc .absent), ("collidingEntityID", .sc .absent), ("eventID", .sc .absent), ("collisionType", .sc .absent), ("pad", .sc .absent), ("velocity", .sc .absent), ("mass", .sc .absent), ("location", .sc .absent)] : List (String × Tree)) ++ [])))) []
      (EntityInformationFamilyPdu.members { pduType := 4, protocolFamily := 1 } ++ ([("issuingEntityID", issuingEntityID.2.or (.obj (EntityIdentifier.members EntityIdentifier.init))),
      ("collidingEntityID", collidingEntityID.2.or (.obj (EntityIdentifier.members EntityIdentifier.init))),
      ("eventID", eventID.2.or (.obj (EventIdentifier.members EventIdentifier.init))),
      ("collisionType", collisionType.2), ("pad", .sc (.int 0)),
      ("velocity", velocity.2.or (.obj (Vector3Float.members Vector3Float.init))), ("mass", mass.2),
      ("location", location.2.or (.obj (Vector3Float.members Vector3Float.init)))] : List (String × Tree))) := by
    unfold CollisionPdu.initHeap
    refine .bind (.inits (EntityInformationFamilyPdu.inits 4 1 _)) ?_
    refine .bind (.or (p := issuingEntityID) EntityIdentifier.makesNew (by simp [attrOf_putAttr_isSome, attrOf, CollisionPdu.members, EntityInformationFamilyPdu.members, Pdu.members, PduSuperclass.members])) ?_
    refine .bind (.or (p := collidingEntityID) EntityIdentifier.makesNew (by simp [attrOf_putAttr_isSome, attrOf, CollisionPdu.members, EntityInformationFamilyPdu.members, Pdu.members, PduSuperclass.members])) ?_
    refine .bind (.or (p := eventID) EventIdentifier.makesNew (by simp [attrOf_putAttr_isSome, attrOf, CollisionPdu.members, EntityInformationFamilyPdu.members, Pdu.members, PduSuperclass.members])) ?_
    refine .bind (.arg (p := collisionType) (by simp [attrOf_putAttr_isSome, attrOf, CollisionPdu.members, EntityInformationFamilyPdu.members, Pdu.members, PduSuperclass.members])) ?_
    refine .bind (.inits (.set' (by simp [attrOf_putAttr_isSome, attrOf, CollisionPdu.members, EntityInformationFamilyPdu.members, Pdu.members, PduSuperclass.members]))) ?_
    refine .bind (.or (p := velocity) Vector3Float.makesNew (by simp [attrOf_putAttr_isSome, attrOf, CollisionPdu.members, EntityInformationFamilyPdu.members, Pdu.members, PduSuperclass.members])) ?_
    refine .bind (.arg (p := mass) (by simp [attrOf_putAttr_isSome, attrOf, CollisionPdu.members, EntityInformationFamilyPdu.members, Pdu.members, PduSuperclass.members])) ?_
    exact .cast (.or (p := location) Vector3Float.makesNew (by simp [attrOf_putAttr_isSome, attrOf, CollisionPdu.members, EntityInformationFamilyPdu.members, Pdu.members, PduSuperclass.members]))
      (by simp [putAttr, CollisionPdu.members, EntityInformationFamilyPdu.members, Pdu.members, PduSuperclass.members, Tree.ints, Tree.objs, Tree.optInt, Tree.optObj, Tree.intOr, Tree.optFloat, Tree.noneOr, IntercomParametersValue.tree])
  exact .new a

theorem Ctor.CollisionPdu.lawful : Ctor.CollisionPdu.Lawful := by
  intro kv kt e ok
  refine .select [("issuingEntityID", .none), ("collidingEntityID", .none), ("eventID", .none), ("collisionType", .int 0), ("velocity", .none), ("mass", .float 0x0000000000000000), ("location", .none)] (by simp) e ?_
  exact .cast (CollisionPdu.builds ((attrOf "issuingEntityID" kv).getD (.sc (.none)), (attrOf "issuingEntityID" kt).getD (.sc (.none))) ((attrOf "collidingEntityID" kv).getD (.sc (.none)), (attrOf "collidingEntityID" kt).getD (.sc (.none))) ((attrOf "eventID" kv).getD (.sc (.none)), (attrOf "eventID" kt).getD (.sc (.none))) ((attrOf "collisionType" kv).getD (.sc (.int 0)), (attrOf "collisionType" kt).getD (.sc (.int 0))) ((attrOf "velocity" kv).getD (.sc (.none)), (attrOf "velocity" kt).getD (.sc (.none))) ((attrOf "mass" kv).getD (.sc (.float 0x0000000000000000)), (attrOf "mass" kt).getD (.sc (.float 0x0000000000000000))) ((attrOf "location" kv).getD (.sc (.none)), (attrOf "location" kt).getD (.sc (.none)))) (by
    simp [Ctor.built, Ctor.CollisionPdu, HeapClass.CollisionPdu, InPlace.value, InPlace.CollisionPdu, Codec.CollisionPdu, CollisionPdu.init, Param.put, Tree.change, value_asIs, value_orFresh, value_copy, Tree.or_list, CollisionPdu.members, EntityInformationFamilyPdu.members, Pdu.members, PduSuperclass.members, Tree.ints, Tree.objs, Tree.optInt, Tree.optObj, Tree.intOr, Tree.optFloat, Tree.noneOr, IntercomParametersValue.tree])

theorem RepairResponsePdu.builds (receivingEntityID repairingEntityID repairResult : Val × Tree) :
    Builds (RepairResponsePdu.newHeap receivingEntityID.1 repairingEntityID.1 repairResult.1) [receivingEntityID, repairingEntityID, repairResult]
      (.obj (LogisticsFamilyPdu.members { pduType := 10, protocolFamily := 3 } ++ ([("receivingEntityID", receivingEntityID.2.or (.obj (EntityIdentifier.members EntityIdentifier.init))),
      ("repairingEntityID", repairingEntityID.2.or (.obj (EntityIdentifier.members EntityIdentifier.init))),
      ("repairResult", repairResult.2), ("padding1", .sc (.int 0)), ("padding2", .sc (.int 0))] : List (String × Tree)))) := by
  have a : Fills (fun self => RepairResponsePdu.initHeap self receivingEntityID.1 repairingEntityID.1 repairResult.1) [receivingEntityID, repairingEntityID, repairResult]
      (([("protocolVersion", .sc .absent), ("exerciseID", .sc .absent), ("pduType", .sc (.int 10)), ("protocolFamily", .sc (.int 3)), ("timestamp", .sc .absent), ("length", .sc .absent)] : List (String × Tree)) ++
      (([("pduStatus", .sc .absent), ("padding", .sc .absent)] : List (String × Tree)) ++
      ([] ++
      (([("receivingEntityID", .sc .absent), ("repairingEntityID", .sc .absent), ("repairResult", .sc .absent), ("padding1", .sc .absent), ("padding2", .sc .absent)] : List (String × Tree)) ++ [])))) []
      (LogisticsFamilyPdu.members { pduType := 10, protocolFamily := 3 } ++ ([("receivingEntityID", receivingEntityID.2.or (.obj (EntityIdentifier.members EntityIdentifier.init))),
      ("repairingEntityID", repairingEntityID.2.or (.obj (EntityIdentifier.members EntityIdentifier.init))),
      ("repairResult", repairResult.2), ("padding1", .sc (.int 0)), ("padding2", .sc (.int 0))] : List (String × Tree))) := by
    unfold RepairResponsePdu.initHeap
    refine .bind (.inits (LogisticsFamilyPdu.inits 10 3 _)) ?_
    refine .bind (.or (p := receivingEntityID) EntityIdentifier.makesNew (by simp [attrOf_putAttr_isSome, attrOf, RepairResponsePdu.members, LogisticsFamilyPdu.members, Pdu.members, PduSuperclass.members])) ?_
    refine .bind (.or (p := repairingEntityID) EntityIdentifier.makesNew (by simp [attrOf_putAttr_isSome, attrOf, RepairResponsePdu.members, LogisticsFamilyPdu.members, Pdu.members, PduSuperclass.members])) ?_
    refine .bind (.arg (p := repairResult) (by simp [attrOf_putAttr_isSome, attrOf, RepairResponsePdu.members, LogisticsFamilyPdu.members, Pdu.members, PduSuperclass.members])) ?_
    refine .bind (.inits (.set' (by simp [attrOf_putAttr_isSome, attrOf, RepairResponsePdu.members, LogisticsFamilyPdu.members, Pdu.members, PduSuperclass.members]))) ?_
    exact .cast (.inits (.set' (by simp [attrOf_putAttr_isSome, attrOf, RepairResponsePdu.members, LogisticsFamilyPdu.members, Pdu.members, PduSuperclass.members])))
      (by simp [putAttr, RepairResponsePdu.members, LogisticsFamilyPdu.members, Pdu.members, PduSuperclass.members, Tree.ints, Tree.objs, Tree.optInt, Tree.optObj, Tree.intOr, Tree.optFloat, Tree.noneOr, IntercomParametersValue.tree])
  exact .new a

theorem Ctor.RepairResponsePdu.lawful : Ctor.RepairResponsePdu.Lawful := by
  intro kv kt e ok
  refine .select [("receivingEntityID", .none), ("repairingEntityID", .none), ("repairResult", .int 0)] (by simp) e ?_
  exact .cast (RepairResponsePdu.builds ((attrOf "receivingEntityID" kv).getD (.sc (.none)), (attrOf "receivingEntityID" kt).getD (.sc (.none))) ((attrOf "repairingEntityID" kv).getD (.sc (.none)), (attrOf "repairingEntityID" kt).getD (.sc (.none))) ((attrOf "repairResult" kv).getD (.sc (.int 0)), (attrOf "repairResult" kt).getD (.sc (.int 0)))) (by
    simp [Ctor.built, Ctor.RepairResponsePdu, HeapClass.RepairResponsePdu, InPlace.value, InPlace.RepairResponsePdu, Codec.RepairResponsePdu, RepairResponsePdu.init, Param.put, Tree.change, value_asIs, value_orFresh, value_copy, Tree.or_list, RepairResponsePdu.members, LogisticsFamilyPdu.members, Pdu.members, PduSuperclass.members, Tree.ints, Tree.objs, Tree.optInt, Tree.optObj, Tree.intOr, Tree.optFloat, Tree.noneOr, IntercomParametersValue.tree])

theorem DataQueryPdu.builds (requestID timeInterval fixedDatumIDs variableDatumIDs : Val × Tree) :
    Builds (DataQueryPdu.newHeap requestID.1 timeInterval.1 fixedDatumIDs.1 variableDatumIDs.1) [fixedDatumIDs, variableDatumIDs, requestID, timeInterval]
      (.obj (SimulationManagementFamilyPdu.members { pduType := 18, protocolFamily := 5 } ++ ([("requestID", .sc (.int 0)), ("timeInterval", .sc (.int 0)),
      ("_dataQuery", .obj [("fixedDatumIDs", (fixedDatumIDs.2.or (.list [])).or (.list [])), ("variableDatumIDs", (variableDatumIDs.2.or (.list [])).or (.list []))])] : List (String × Tree)))) := by
  have a : Fills (fun self => DataQueryPdu.initHeap self requestID.1 timeInterval.1 fixedDatumIDs.1 variableDatumIDs.1) [fixedDatumIDs, variableDatumIDs, requestID, timeInterval]
      (([("protocolVersion", .sc .absent), ("exerciseID", .sc .absent), ("pduType", .sc (.int 18)), ("protocolFamily", .sc (.int 5)), ("timestamp", .sc .absent), ("length", .sc .absent)] : List (String × Tree)) ++
      (([("pduStatus", .sc .absent), ("padding", .sc .absent)] : List (String × Tree)) ++
      (([("originatingEntityID", .sc .absent), ("receivingEntityID", .sc .absent)] : List (String × Tree)) ++
      (([("requestID", .sc .absent), ("timeInterval", .sc .absent), ("_dataQuery", .sc .absent)] : List (String × Tree)) ++ [])))) [requestID, timeInterval]
      (SimulationManagementFamilyPdu.members { pduType := 18, protocolFamily := 5 } ++ ([("requestID", .sc (.int 0)), ("timeInterval", .sc (.int 0)),
      ("_dataQuery", .obj [("fixedDatumIDs", (fixedDatumIDs.2.or (.list [])).or (.list [])), ("variableDatumIDs", (variableDatumIDs.2.or (.list [])).or (.list []))])] : List (String × Tree))) := by
    unfold DataQueryPdu.initHeap
    refine .bind (.inits (SimulationManagementFamilyPdu.inits 18 5 _)) ?_
    refine .bind (.inits (.set' (by simp [attrOf_putAttr_isSome, attrOf, DataQueryPdu.members, SimulationManagementFamilyPdu.members, Pdu.members, PduSuperclass.members]))) ?_
    refine .bind (.inits (.set' (by simp [attrOf_putAttr_isSome, attrOf, DataQueryPdu.members, SimulationManagementFamilyPdu.members, Pdu.members, PduSuperclass.members]))) ?_
    exact .cast (.lists (p := fixedDatumIDs) (q := variableDatumIDs) (k := fun a b => DataQueryDatumSpecification.newHeap a b)
      (t := fun t u => .obj [("fixedDatumIDs", t.or (.list [])), ("variableDatumIDs", u.or (.list []))]) DataQueryDatumSpecification.builds (by simp [attrOf_putAttr_isSome, attrOf, DataQueryPdu.members, SimulationManagementFamilyPdu.members, Pdu.members, PduSuperclass.members]))
      (by simp [putAttr, DataQueryPdu.members, SimulationManagementFamilyPdu.members, Pdu.members, PduSuperclass.members, Tree.ints, Tree.objs, Tree.optInt, Tree.optObj, Tree.intOr, Tree.optFloat, Tree.noneOr, IntercomParametersValue.tree])
  exact .new a

theorem Ctor.DataQueryPdu.lawful : Ctor.DataQueryPdu.Lawful := by
  intro kv kt e ok
  refine .select [("fixedDatumIDs", .none), ("variableDatumIDs", .none), ("requestID", .int 0), ("timeInterval", .int 0)] (by simp) e ?_
  exact .cast (DataQueryPdu.builds ((attrOf "requestID" kv).getD (.sc (.int 0)), (attrOf "requestID" kt).getD (.sc (.int 0))) ((attrOf "timeInterval" kv).getD (.sc (.int 0)), (attrOf "timeInterval" kt).getD (.sc (.int 0))) ((attrOf "fixedDatumIDs" kv).getD (.sc (.none)), (attrOf "fixedDatumIDs" kt).getD (.sc (.none))) ((attrOf "variableDatumIDs" kv).getD (.sc (.none)), (attrOf "variableDatumIDs" kt).getD (.sc (.none)))) (by
    simp [Ctor.built, Ctor.DataQueryPdu, HeapClass.DataQueryPdu, InPlace.value, InPlace.DataQueryPdu, Codec.DataQueryPdu, DataQueryPdu.init, Param.put, Tree.change, value_asIs, value_orFresh, value_copy, Tree.or_list, DataQueryPdu.members, SimulationManagementFamilyPdu.members, Pdu.members, PduSuperclass.members, DataQueryDatumSpecification.members, DataQueryDatumSpecification.init, Tree.ints, Tree.objs, Tree.optInt, Tree.optObj, Tree.intOr, Tree.optFloat, Tree.noneOr, IntercomParametersValue.tree])

end Dis
