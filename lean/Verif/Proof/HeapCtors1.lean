import Verif.Proof.HeapArgs
import Verif.Spec.HeapCtors

/-!
# Constructors with arguments, part 1

Generated by `tools/genheapargs.py`.
-/

set_option linter.unusedVariables false
set_option linter.unusedSimpArgs false

namespace Dis

theorem SimulationAddress.builds (site application : Val × Tree) :
    Builds (SimulationAddress.newHeap site.1 application.1) [site, application]
      (.obj [("site", site.2), ("application", application.2)]) := by
  have a : Fills (fun self => SimulationAddress.initHeap self site.1 application.1) [site, application]
      (([("site", .sc .absent), ("application", .sc .absent)] : List (String × Tree)) ++ []) []
      [("site", site.2), ("application", application.2)] := by
    unfold SimulationAddress.initHeap
    refine .bind (.arg (p := site) (by simp [attrOf_putAttr_isSome, attrOf, SimulationAddress.members])) ?_
    exact .cast (.arg (p := application) (by simp [attrOf_putAttr_isSome, attrOf, SimulationAddress.members]))
      (by simp [putAttr, SimulationAddress.members, Tree.ints, Tree.objs, Tree.optInt, Tree.optObj, Tree.intOr, Tree.optFloat, Tree.noneOr, IntercomParametersValue.tree])
  exact .new a

theorem Ctor.SimulationAddress.lawful : Ctor.SimulationAddress.Lawful := by
  intro kv kt e ok
  refine .select [("site", .int 0), ("application", .int 0)] (by simp) e ?_
  exact .cast (SimulationAddress.builds ((attrOf "site" kv).getD (.sc (.int 0)), (attrOf "site" kt).getD (.sc (.int 0))) ((attrOf "application" kv).getD (.sc (.int 0)), (attrOf "application" kt).getD (.sc (.int 0)))) (by
    simp [Ctor.built, Ctor.SimulationAddress, HeapClass.SimulationAddress, InPlace.value, InPlace.SimulationAddress, Codec.SimulationAddress, SimulationAddress.init, Param.put, Tree.change, value_asIs, value_orFresh, value_copy, Tree.or_list, SimulationAddress.members, Tree.ints, Tree.objs, Tree.optInt, Tree.optObj, Tree.intOr, Tree.optFloat, Tree.noneOr, IntercomParametersValue.tree])

theorem EntityIdentifier.builds (simulationAddress entityNumber : Val × Tree) :
    Builds (EntityIdentifier.newHeap simulationAddress.1 entityNumber.1) [simulationAddress, entityNumber]
      (.obj [("simulationAddress", simulationAddress.2.or (.obj (SimulationAddress.members SimulationAddress.init))),
      ("entityNumber", entityNumber.2)]) := by
  have a : Fills (fun self => EntityIdentifier.initHeap self simulationAddress.1 entityNumber.1) [simulationAddress, entityNumber]
      (([("simulationAddress", .sc .absent), ("entityNumber", .sc .absent)] : List (String × Tree)) ++ []) []
      [("simulationAddress", simulationAddress.2.or (.obj (SimulationAddress.members SimulationAddress.init))),
      ("entityNumber", entityNumber.2)] := by
    unfold EntityIdentifier.initHeap
    refine .bind (.or (p := simulationAddress) SimulationAddress.makesNew (by simp [attrOf_putAttr_isSome, attrOf, EntityIdentifier.members])) ?_
    exact .cast (.arg (p := entityNumber) (by simp [attrOf_putAttr_isSome, attrOf, EntityIdentifier.members]))
      (by simp [putAttr, EntityIdentifier.members, Tree.ints, Tree.objs, Tree.optInt, Tree.optObj, Tree.intOr, Tree.optFloat, Tree.noneOr, IntercomParametersValue.tree])
  exact .new a

theorem Ctor.EntityIdentifier.lawful : Ctor.EntityIdentifier.Lawful := by
  intro kv kt e ok
  refine .select [("simulationAddress", .none), ("entityNumber", .int 0)] (by simp) e ?_
  exact .cast (EntityIdentifier.builds ((attrOf "simulationAddress" kv).getD (.sc (.none)), (attrOf "simulationAddress" kt).getD (.sc (.none))) ((attrOf "entityNumber" kv).getD (.sc (.int 0)), (attrOf "entityNumber" kt).getD (.sc (.int 0)))) (by
    simp [Ctor.built, Ctor.EntityIdentifier, HeapClass.EntityIdentifier, InPlace.value, InPlace.EntityIdentifier, Codec.EntityIdentifier, EntityIdentifier.init, Param.put, Tree.change, value_asIs, value_orFresh, value_copy, Tree.or_list, EntityIdentifier.members, Tree.ints, Tree.objs, Tree.optInt, Tree.optObj, Tree.intOr, Tree.optFloat, Tree.noneOr, IntercomParametersValue.tree])

theorem EulerAngles.builds (psi theta phi : Val × Tree) :
    Builds (EulerAngles.newHeap psi.1 theta.1 phi.1) [psi, theta, phi]
      (.obj [("psi", psi.2), ("theta", theta.2), ("phi", phi.2)]) := by
  have a : Fills (fun self => EulerAngles.initHeap self psi.1 theta.1 phi.1) [psi, theta, phi]
      (([("psi", .sc .absent), ("theta", .sc .absent), ("phi", .sc .absent)] : List (String × Tree)) ++ []) []
      [("psi", psi.2), ("theta", theta.2), ("phi", phi.2)] := by
    unfold EulerAngles.initHeap
    refine .bind (.arg (p := psi) (by simp [attrOf_putAttr_isSome, attrOf, EulerAngles.members])) ?_
    refine .bind (.arg (p := theta) (by simp [attrOf_putAttr_isSome, attrOf, EulerAngles.members])) ?_
    exact .cast (.arg (p := phi) (by simp [attrOf_putAttr_isSome, attrOf, EulerAngles.members]))
      (by simp [putAttr, EulerAngles.members, Tree.ints, Tree.objs, Tree.optInt, Tree.optObj, Tree.intOr, Tree.optFloat, Tree.noneOr, IntercomParametersValue.tree])
  exact .new a

theorem Ctor.EulerAngles.lawful : Ctor.EulerAngles.Lawful := by
  intro kv kt e ok
  refine .select [("psi", .float 0x0000000000000000), ("theta", .float 0x0000000000000000), ("phi", .float 0x0000000000000000)] (by simp) e ?_
  exact .cast (EulerAngles.builds ((attrOf "psi" kv).getD (.sc (.float 0x0000000000000000)), (attrOf "psi" kt).getD (.sc (.float 0x0000000000000000))) ((attrOf "theta" kv).getD (.sc (.float 0x0000000000000000)), (attrOf "theta" kt).getD (.sc (.float 0x0000000000000000))) ((attrOf "phi" kv).getD (.sc (.float 0x0000000000000000)), (attrOf "phi" kt).getD (.sc (.float 0x0000000000000000)))) (by
    simp [Ctor.built, Ctor.EulerAngles, HeapClass.EulerAngles, InPlace.value, InPlace.EulerAngles, Codec.EulerAngles, EulerAngles.init, Param.put, Tree.change, value_asIs, value_orFresh, value_copy, Tree.or_list, EulerAngles.members, Tree.ints, Tree.objs, Tree.optInt, Tree.optObj, Tree.intOr, Tree.optFloat, Tree.noneOr, IntercomParametersValue.tree])

theorem EventIdentifier.builds (simulationAddress eventNumber : Val × Tree) :
    Builds (EventIdentifier.newHeap simulationAddress.1 eventNumber.1) [simulationAddress, eventNumber]
      (.obj [("simulationAddress", simulationAddress.2.or (.obj (SimulationAddress.members SimulationAddress.init))),
      ("eventNumber", eventNumber.2)]) := by
  have a : Fills (fun self => EventIdentifier.initHeap self simulationAddress.1 eventNumber.1) [simulationAddress, eventNumber]
      (([("simulationAddress", .sc .absent), ("eventNumber", .sc .absent)] : List (String × Tree)) ++ []) []
      [("simulationAddress", simulationAddress.2.or (.obj (SimulationAddress.members SimulationAddress.init))),
      ("eventNumber", eventNumber.2)] := by
    unfold EventIdentifier.initHeap
    refine .bind (.or (p := simulationAddress) SimulationAddress.makesNew (by simp [attrOf_putAttr_isSome, attrOf, EventIdentifier.members])) ?_
    exact .cast (.arg (p := eventNumber) (by simp [attrOf_putAttr_isSome, attrOf, EventIdentifier.members]))
      (by simp [putAttr, EventIdentifier.members, Tree.ints, Tree.objs, Tree.optInt, Tree.optObj, Tree.intOr, Tree.optFloat, Tree.noneOr, IntercomParametersValue.tree])
  exact .new a

theorem Ctor.EventIdentifier.lawful : Ctor.EventIdentifier.Lawful := by
  intro kv kt e ok
  refine .select [("simulationAddress", .none), ("eventNumber", .int 0)] (by simp) e ?_
  exact .cast (EventIdentifier.builds ((attrOf "simulationAddress" kv).getD (.sc (.none)), (attrOf "simulationAddress" kt).getD (.sc (.none))) ((attrOf "eventNumber" kv).getD (.sc (.int 0)), (attrOf "eventNumber" kt).getD (.sc (.int 0)))) (by
    simp [Ctor.built, Ctor.EventIdentifier, HeapClass.EventIdentifier, InPlace.value, InPlace.EventIdentifier, Codec.EventIdentifier, EventIdentifier.init, Param.put, Tree.change, value_asIs, value_orFresh, value_copy, Tree.or_list, EventIdentifier.members, Tree.ints, Tree.objs, Tree.optInt, Tree.optObj, Tree.intOr, Tree.optFloat, Tree.noneOr, IntercomParametersValue.tree])

theorem Vector3Float.builds (x y z : Val × Tree) :
    Builds (Vector3Float.newHeap x.1 y.1 z.1) [x, y, z]
      (.obj [("x", x.2), ("y", y.2), ("z", z.2)]) := by
  have a : Fills (fun self => Vector3Float.initHeap self x.1 y.1 z.1) [x, y, z]
      (([("x", .sc .absent), ("y", .sc .absent), ("z", .sc .absent)] : List (String × Tree)) ++ []) []
      [("x", x.2), ("y", y.2), ("z", z.2)] := by
    unfold Vector3Float.initHeap
    refine .bind (.arg (p := x) (by simp [attrOf_putAttr_isSome, attrOf, Vector3Float.members])) ?_
    refine .bind (.arg (p := y) (by simp [attrOf_putAttr_isSome, attrOf, Vector3Float.members])) ?_
    exact .cast (.arg (p := z) (by simp [attrOf_putAttr_isSome, attrOf, Vector3Float.members]))
      (by simp [putAttr, Vector3Float.members, Tree.ints, Tree.objs, Tree.optInt, Tree.optObj, Tree.intOr, Tree.optFloat, Tree.noneOr, IntercomParametersValue.tree])
  exact .new a

theorem Ctor.Vector3Float.lawful : Ctor.Vector3Float.Lawful := by
  intro kv kt e ok
  refine .select [("x", .float 0x0000000000000000), ("y", .float 0x0000000000000000), ("z", .float 0x0000000000000000)] (by simp) e ?_
  exact .cast (Vector3Float.builds ((attrOf "x" kv).getD (.sc (.float 0x0000000000000000)), (attrOf "x" kt).getD (.sc (.float 0x0000000000000000))) ((attrOf "y" kv).getD (.sc (.float 0x0000000000000000)), (attrOf "y" kt).getD (.sc (.float 0x0000000000000000))) ((attrOf "z" kv).getD (.sc (.float 0x0000000000000000)), (attrOf "z" kt).getD (.sc (.float 0x0000000000000000)))) (by
    simp [Ctor.built, Ctor.Vector3Float, HeapClass.Vector3Float, InPlace.value, InPlace.Vector3Float, Codec.Vector3Float, Vector3Float.init, Param.put, Tree.change, value_asIs, value_orFresh, value_copy, Tree.or_list, Vector3Float.members, Tree.ints, Tree.objs, Tree.optInt, Tree.optObj, Tree.intOr, Tree.optFloat, Tree.noneOr, IntercomParametersValue.tree])

theorem WorldCoordinates.builds (x y z : Val × Tree) :
    Builds (WorldCoordinates.newHeap x.1 y.1 z.1) [x, y, z]
      (.obj [("x", x.2), ("y", y.2), ("z", z.2)]) := by
  have a : Fills (fun self => WorldCoordinates.initHeap self x.1 y.1 z.1) [x, y, z]
      (([("x", .sc .absent), ("y", .sc .absent), ("z", .sc .absent)] : List (String × Tree)) ++ []) []
      [("x", x.2), ("y", y.2), ("z", z.2)] := by
    unfold WorldCoordinates.initHeap
    refine .bind (.arg (p := x) (by simp [attrOf_putAttr_isSome, attrOf, WorldCoordinates.members])) ?_
    refine .bind (.arg (p := y) (by simp [attrOf_putAttr_isSome, attrOf, WorldCoordinates.members])) ?_
    exact .cast (.arg (p := z) (by simp [attrOf_putAttr_isSome, attrOf, WorldCoordinates.members]))
      (by simp [putAttr, WorldCoordinates.members, Tree.ints, Tree.objs, Tree.optInt, Tree.optObj, Tree.intOr, Tree.optFloat, Tree.noneOr, IntercomParametersValue.tree])
  exact .new a

theorem Ctor.WorldCoordinates.lawful : Ctor.WorldCoordinates.Lawful := by
  intro kv kt e ok
  refine .select [("x", .float 0x0000000000000000), ("y", .float 0x0000000000000000), ("z", .float 0x0000000000000000)] (by simp) e ?_
  exact .cast (WorldCoordinates.builds ((attrOf "x" kv).getD (.sc (.float 0x0000000000000000)), (attrOf "x" kt).getD (.sc (.float 0x0000000000000000))) ((attrOf "y" kv).getD (.sc (.float 0x0000000000000000)), (attrOf "y" kt).getD (.sc (.float 0x0000000000000000))) ((attrOf "z" kv).getD (.sc (.float 0x0000000000000000)), (attrOf "z" kt).getD (.sc (.float 0x0000000000000000)))) (by
    simp [Ctor.built, Ctor.WorldCoordinates, HeapClass.WorldCoordinates, InPlace.value, InPlace.WorldCoordinates, Codec.WorldCoordinates, WorldCoordinates.init, Param.put, Tree.change, value_asIs, value_orFresh, value_copy, Tree.or_list, WorldCoordinates.members, Tree.ints, Tree.objs, Tree.optInt, Tree.optObj, Tree.intOr, Tree.optFloat, Tree.noneOr, IntercomParametersValue.tree])

theorem DataQueryDatumSpecification.builds (fixedDatumIDs variableDatumIDs : Val × Tree) :
    Builds (DataQueryDatumSpecification.newHeap fixedDatumIDs.1 variableDatumIDs.1) [fixedDatumIDs, variableDatumIDs]
      (.obj [("fixedDatumIDs", fixedDatumIDs.2.or (.list [])), ("variableDatumIDs", variableDatumIDs.2.or (.list []))]) := by
  have a : Fills (fun self => DataQueryDatumSpecification.initHeap self fixedDatumIDs.1 variableDatumIDs.1) [fixedDatumIDs, variableDatumIDs]
      (([("fixedDatumIDs", .sc .absent), ("variableDatumIDs", .sc .absent)] : List (String × Tree)) ++ []) []
      [("fixedDatumIDs", fixedDatumIDs.2.or (.list [])), ("variableDatumIDs", variableDatumIDs.2.or (.list []))] := by
    unfold DataQueryDatumSpecification.initHeap
    refine .bind (.or (p := fixedDatumIDs) .empty (by simp [attrOf_putAttr_isSome, attrOf, DataQueryDatumSpecification.members])) ?_
    exact .cast (.or (p := variableDatumIDs) .empty (by simp [attrOf_putAttr_isSome, attrOf, DataQueryDatumSpecification.members]))
      (by simp [putAttr, DataQueryDatumSpecification.members, Tree.ints, Tree.objs, Tree.optInt, Tree.optObj, Tree.intOr, Tree.optFloat, Tree.noneOr, IntercomParametersValue.tree])
  exact .new a

theorem Ctor.DataQueryDatumSpecification.lawful : Ctor.DataQueryDatumSpecification.Lawful := by
  intro kv kt e ok
  refine .select [("fixedDatumIDs", .none), ("variableDatumIDs", .none)] (by simp) e ?_
  exact .cast (DataQueryDatumSpecification.builds ((attrOf "fixedDatumIDs" kv).getD (.sc (.none)), (attrOf "fixedDatumIDs" kt).getD (.sc (.none))) ((attrOf "variableDatumIDs" kv).getD (.sc (.none)), (attrOf "variableDatumIDs" kt).getD (.sc (.none)))) (by
    simp [Ctor.built, Ctor.DataQueryDatumSpecification, HeapClass.DataQueryDatumSpecification, InPlace.value, InPlace.DataQueryDatumSpecification, Codec.DataQueryDatumSpecification, DataQueryDatumSpecification.init, Param.put, Tree.change, value_asIs, value_orFresh, value_copy, Tree.or_list, DataQueryDatumSpecification.members, Tree.ints, Tree.objs, Tree.optInt, Tree.optObj, Tree.intOr, Tree.optFloat, Tree.noneOr, IntercomParametersValue.tree])

theorem RadioIdentifier.builds (siteNumber applicationNumber referenceNumber radioNumber : Val × Tree) :
    Builds (RadioIdentifier.newHeap siteNumber.1 applicationNumber.1 referenceNumber.1 radioNumber.1) [siteNumber, applicationNumber, referenceNumber, radioNumber]
      (.obj [("siteNumber", siteNumber.2), ("applicationNumber", applicationNumber.2),
      ("referenceNumber", referenceNumber.2), ("radioNumber", radioNumber.2)]) := by
  have a : Fills (fun self => RadioIdentifier.initHeap self siteNumber.1 applicationNumber.1 referenceNumber.1 radioNumber.1) [siteNumber, applicationNumber, referenceNumber, radioNumber]
      (([("siteNumber", .sc .absent), ("applicationNumber", .sc .absent), ("referenceNumber", .sc .absent), ("radioNumber", .sc .absent)] : List (String × Tree)) ++ []) []
      [("siteNumber", siteNumber.2), ("applicationNumber", applicationNumber.2),
      ("referenceNumber", referenceNumber.2), ("radioNumber", radioNumber.2)] := by
    unfold RadioIdentifier.initHeap
    refine .bind (.arg (p := siteNumber) (by simp [attrOf_putAttr_isSome, attrOf, RadioIdentifier.members])) ?_
    refine .bind (.arg (p := applicationNumber) (by simp [attrOf_putAttr_isSome, attrOf, RadioIdentifier.members])) ?_
    refine .bind (.arg (p := referenceNumber) (by simp [attrOf_putAttr_isSome, attrOf, RadioIdentifier.members])) ?_
    exact .cast (.arg (p := radioNumber) (by simp [attrOf_putAttr_isSome, attrOf, RadioIdentifier.members]))
      (by simp [putAttr, RadioIdentifier.members, Tree.ints, Tree.objs, Tree.optInt, Tree.optObj, Tree.intOr, Tree.optFloat, Tree.noneOr, IntercomParametersValue.tree])
  exact .new a

theorem Ctor.RadioIdentifier.lawful : Ctor.RadioIdentifier.Lawful := by
  intro kv kt e ok
  refine .select [("siteNumber", .int 0), ("applicationNumber", .int 0), ("referenceNumber", .int 0), ("radioNumber", .int 0)] (by simp) e ?_
  exact .cast (RadioIdentifier.builds ((attrOf "siteNumber" kv).getD (.sc (.int 0)), (attrOf "siteNumber" kt).getD (.sc (.int 0))) ((attrOf "applicationNumber" kv).getD (.sc (.int 0)), (attrOf "applicationNumber" kt).getD (.sc (.int 0))) ((attrOf "referenceNumber" kv).getD (.sc (.int 0)), (attrOf "referenceNumber" kt).getD (.sc (.int 0))) ((attrOf "radioNumber" kv).getD (.sc (.int 0)), (attrOf "radioNumber" kt).getD (.sc (.int 0)))) (by
    simp [Ctor.built, Ctor.RadioIdentifier, HeapClass.RadioIdentifier, InPlace.value, InPlace.RadioIdentifier, Codec.RadioIdentifier, RadioIdentifier.init, Param.put, Tree.change, value_asIs, value_orFresh, value_copy, Tree.or_list, RadioIdentifier.members, Tree.ints, Tree.objs, Tree.optInt, Tree.optObj, Tree.intOr, Tree.optFloat, Tree.noneOr, IntercomParametersValue.tree])

theorem RequestID.builds (requestID : Val × Tree) :
    Builds (RequestID.newHeap requestID.1) [requestID]
      (.obj [("requestID", requestID.2)]) := by
  have a : Fills (fun self => RequestID.initHeap self requestID.1) [requestID]
      (([("requestID", .sc .absent)] : List (String × Tree)) ++ []) []
      [("requestID", requestID.2)] := by
    unfold RequestID.initHeap
    exact .cast (.arg (p := requestID) (by simp [attrOf_putAttr_isSome, attrOf, RequestID.members]))
      (by simp [putAttr, RequestID.members, Tree.ints, Tree.objs, Tree.optInt, Tree.optObj, Tree.intOr, Tree.optFloat, Tree.noneOr, IntercomParametersValue.tree])
  exact .new a

theorem Ctor.RequestID.lawful : Ctor.RequestID.Lawful := by
  intro kv kt e ok
  refine .select [("requestID", .int 0)] (by simp) e ?_
  exact .cast (RequestID.builds ((attrOf "requestID" kv).getD (.sc (.int 0)), (attrOf "requestID" kt).getD (.sc (.int 0)))) (by
    simp [Ctor.built, Ctor.RequestID, HeapClass.RequestID, InPlace.value, InPlace.RequestID, Codec.RequestID, RequestID.init, Param.put, Tree.change, value_asIs, value_orFresh, value_copy, Tree.or_list, RequestID.members, Tree.ints, Tree.objs, Tree.optInt, Tree.optObj, Tree.intOr, Tree.optFloat, Tree.noneOr, IntercomParametersValue.tree])

theorem IFFData.builds (recordType recordLength iffData : Val × Tree) :
    Builds (IFFData.newHeap recordType.1 recordLength.1 iffData.1) [recordType, recordLength, iffData]
      (.obj [("recordType", recordType.2), ("recordLength", recordLength.2), ("iffData", iffData.2.or (.list []))]) := by
  have a : Fills (fun self => IFFData.initHeap self recordType.1 recordLength.1 iffData.1) [recordType, recordLength, iffData]
      (([("recordType", .sc .absent), ("recordLength", .sc .absent), ("iffData", .sc .absent)] : List (String × Tree)) ++ []) []
      [("recordType", recordType.2), ("recordLength", recordLength.2), ("iffData", iffData.2.or (.list []))] := by
    unfold IFFData.initHeap
    refine .bind (.arg (p := recordType) (by simp [attrOf_putAttr_isSome, attrOf, IFFData.members])) ?_
    refine .bind (.arg (p := recordLength) (by simp [attrOf_putAttr_isSome, attrOf, IFFData.members])) ?_
    exact .cast (.or (p := iffData) .empty (by simp [attrOf_putAttr_isSome, attrOf, IFFData.members]))
      (by simp [putAttr, IFFData.members, Tree.ints, Tree.objs, Tree.optInt, Tree.optObj, Tree.intOr, Tree.optFloat, Tree.noneOr, IntercomParametersValue.tree])
  exact .new a

theorem Ctor.IFFData.lawful : Ctor.IFFData.Lawful := by
  intro kv kt e ok
  refine .select [("recordType", .int 0), ("recordLength", .int 0), ("iffData", .none)] (by simp) e ?_
  exact .cast (IFFData.builds ((attrOf "recordType" kv).getD (.sc (.int 0)), (attrOf "recordType" kt).getD (.sc (.int 0))) ((attrOf "recordLength" kv).getD (.sc (.int 0)), (attrOf "recordLength" kt).getD (.sc (.int 0))) ((attrOf "iffData" kv).getD (.sc (.none)), (attrOf "iffData" kt).getD (.sc (.none)))) (by
    simp [Ctor.built, Ctor.IFFData, HeapClass.IFFData, InPlace.value, InPlace.IFFData, Codec.IFFData, IFFData.init, Param.put, Tree.change, value_asIs, value_orFresh, value_copy, Tree.or_list, IFFData.members, Tree.ints, Tree.objs, Tree.optInt, Tree.optObj, Tree.intOr, Tree.optFloat, Tree.noneOr, IntercomParametersValue.tree])

theorem EntityType.builds (entityKind domain country category subcategory specific extra : Val × Tree) :
    Builds (EntityType.newHeap entityKind.1 domain.1 country.1 category.1 subcategory.1 specific.1 extra.1) [entityKind, domain, country, category, subcategory, specific, extra]
      (.obj [("entityKind", entityKind.2), ("domain", domain.2), ("country", country.2), ("category", category.2),
      ("subcategory", subcategory.2), ("specific", specific.2), ("extra", extra.2)]) := by
  have a : Fills (fun self => EntityType.initHeap self entityKind.1 domain.1 country.1 category.1 subcategory.1 specific.1 extra.1) [entityKind, domain, country, category, subcategory, specific, extra]
      (([("entityKind", .sc .absent), ("domain", .sc .absent), ("country", .sc .absent), ("category", .sc .absent), ("subcategory", .sc .absent), ("specific", .sc .absent), ("extra", .sc .absent)] : List (String × Tree)) ++ []) []
      [("entityKind", entityKind.2), ("domain", domain.2), ("country", country.2), ("category", category.2),
      ("subcategory", subcategory.2), ("specific", specific.2), ("extra", extra.2)] := by
    unfold EntityType.initHeap
    refine .bind (.arg (p := entityKind) (by simp [attrOf_putAttr_isSome, attrOf, EntityType.members])) ?_
    refine .bind (.arg (p := domain) (by simp [attrOf_putAttr_isSome, attrOf, EntityType.members])) ?_
    refine .bind (.arg (p := country) (by simp [attrOf_putAttr_isSome, attrOf, EntityType.members])) ?_
    refine .bind (.arg (p := category) (by simp [attrOf_putAttr_isSome, attrOf, EntityType.members])) ?_
    refine .bind (.arg (p := subcategory) (by simp [attrOf_putAttr_isSome, attrOf, EntityType.members])) ?_
    refine .bind (.arg (p := specific) (by simp [attrOf_putAttr_isSome, attrOf, EntityType.members])) ?_
    exact .cast (.arg (p := extra) (by simp [attrOf_putAttr_isSome, attrOf, EntityType.members]))
      (by simp [putAttr, EntityType.members, Tree.ints, Tree.objs, Tree.optInt, Tree.optObj, Tree.intOr, Tree.optFloat, Tree.noneOr, IntercomParametersValue.tree])
  exact .new a

theorem Ctor.EntityType.lawful : Ctor.EntityType.Lawful := by
  intro kv kt e ok
  refine .select [("entityKind", .int 0), ("domain", .int 0), ("country", .int 0), ("category", .int 0), ("subcategory", .int 0), ("specific", .int 0), ("extra", .int 0)] (by simp) e ?_
  exact .cast (EntityType.builds ((attrOf "entityKind" kv).getD (.sc (.int 0)), (attrOf "entityKind" kt).getD (.sc (.int 0))) ((attrOf "domain" kv).getD (.sc (.int 0)), (attrOf "domain" kt).getD (.sc (.int 0))) ((attrOf "country" kv).getD (.sc (.int 0)), (attrOf "country" kt).getD (.sc (.int 0))) ((attrOf "category" kv).getD (.sc (.int 0)), (attrOf "category" kt).getD (.sc (.int 0))) ((attrOf "subcategory" kv).getD (.sc (.int 0)), (attrOf "subcategory" kt).getD (.sc (.int 0))) ((attrOf "specific" kv).getD (.sc (.int 0)), (attrOf "specific" kt).getD (.sc (.int 0))) ((attrOf "extra" kv).getD (.sc (.int 0)), (attrOf "extra" kt).getD (.sc (.int 0)))) (by
    simp [Ctor.built, Ctor.EntityType, HeapClass.EntityType, InPlace.value, InPlace.EntityType, Codec.EntityType, EntityType.init, Param.put, Tree.change, value_asIs, value_orFresh, value_copy, Tree.or_list, EntityType.members, Tree.ints, Tree.objs, Tree.optInt, Tree.optObj, Tree.intOr, Tree.optFloat, Tree.noneOr, IntercomParametersValue.tree])

theorem MunitionDescriptor.builds (munitionType warhead fuse quantity rate : Val × Tree) :
    Builds (MunitionDescriptor.newHeap munitionType.1 warhead.1 fuse.1 quantity.1 rate.1) [munitionType, warhead, fuse, quantity, rate]
      (.obj [("munitionType", munitionType.2.or (.obj (EntityType.members EntityType.init))), ("warhead", warhead.2),
      ("fuse", fuse.2), ("quantity", quantity.2), ("rate", rate.2)]) := by
  have a : Fills (fun self => MunitionDescriptor.initHeap self munitionType.1 warhead.1 fuse.1 quantity.1 rate.1) [munitionType, warhead, fuse, quantity, rate]
      (([("munitionType", .sc .absent), ("warhead", .sc .absent), ("fuse", .sc .absent), ("quantity", .sc .absent), ("rate", .sc .absent)] : List (String × Tree)) ++ []) []
      [("munitionType", munitionType.2.or (.obj (EntityType.members EntityType.init))), ("warhead", warhead.2),
      ("fuse", fuse.2), ("quantity", quantity.2), ("rate", rate.2)] := by
    unfold MunitionDescriptor.initHeap
    refine .bind (.or (p := munitionType) EntityType.makesNew (by simp [attrOf_putAttr_isSome, attrOf, MunitionDescriptor.members])) ?_
    refine .bind (.arg (p := warhead) (by simp [attrOf_putAttr_isSome, attrOf, MunitionDescriptor.members])) ?_
    refine .bind (.arg (p := fuse) (by simp [attrOf_putAttr_isSome, attrOf, MunitionDescriptor.members])) ?_
    refine .bind (.arg (p := quantity) (by simp [attrOf_putAttr_isSome, attrOf, MunitionDescriptor.members])) ?_
    exact .cast (.arg (p := rate) (by simp [attrOf_putAttr_isSome, attrOf, MunitionDescriptor.members]))
      (by simp [putAttr, MunitionDescriptor.members, Tree.ints, Tree.objs, Tree.optInt, Tree.optObj, Tree.intOr, Tree.optFloat, Tree.noneOr, IntercomParametersValue.tree])
  exact .new a

theorem Ctor.MunitionDescriptor.lawful : Ctor.MunitionDescriptor.Lawful := by
  intro kv kt e ok
  refine .select [("munitionType", .none), ("warhead", .int 0), ("fuse", .int 0), ("quantity", .int 0), ("rate", .int 0)] (by simp) e ?_
  exact .cast (MunitionDescriptor.builds ((attrOf "munitionType" kv).getD (.sc (.none)), (attrOf "munitionType" kt).getD (.sc (.none))) ((attrOf "warhead" kv).getD (.sc (.int 0)), (attrOf "warhead" kt).getD (.sc (.int 0))) ((attrOf "fuse" kv).getD (.sc (.int 0)), (attrOf "fuse" kt).getD (.sc (.int 0))) ((attrOf "quantity" kv).getD (.sc (.int 0)), (attrOf "quantity" kt).getD (.sc (.int 0))) ((attrOf "rate" kv).getD (.sc (.int 0)), (attrOf "rate" kt).getD (.sc (.int 0)))) (by
    simp [Ctor.built, Ctor.MunitionDescriptor, HeapClass.MunitionDescriptor, InPlace.value, InPlace.MunitionDescriptor, Codec.MunitionDescriptor, MunitionDescriptor.init, Param.put, Tree.change, value_asIs, value_orFresh, value_copy, Tree.or_list, MunitionDescriptor.members, Tree.ints, Tree.objs, Tree.optInt, Tree.optObj, Tree.intOr, Tree.optFloat, Tree.noneOr, IntercomParametersValue.tree])

theorem MinefieldSensorType.builds (sensorType : Val × Tree) :
    Builds (MinefieldSensorType.newHeap sensorType.1) [sensorType]
      (.obj [("sensorType", sensorType.2)]) := by
  have a : Fills (fun self => MinefieldSensorType.initHeap self sensorType.1) [sensorType]
      (([("sensorType", .sc .absent)] : List (String × Tree)) ++ []) []
      [("sensorType", sensorType.2)] := by
    unfold MinefieldSensorType.initHeap
    exact .cast (.arg (p := sensorType) (by simp [attrOf_putAttr_isSome, attrOf, MinefieldSensorType.members]))
      (by simp [putAttr, MinefieldSensorType.members, Tree.ints, Tree.objs, Tree.optInt, Tree.optObj, Tree.intOr, Tree.optFloat, Tree.noneOr, IntercomParametersValue.tree])
  exact .new a

theorem Ctor.MinefieldSensorType.lawful : Ctor.MinefieldSensorType.Lawful := by
  intro kv kt e ok
  refine .select [("sensorType", .int 0)] (by simp) e ?_
  exact .cast (MinefieldSensorType.builds ((attrOf "sensorType" kv).getD (.sc (.int 0)), (attrOf "sensorType" kt).getD (.sc (.int 0)))) (by
    simp [Ctor.built, Ctor.MinefieldSensorType, HeapClass.MinefieldSensorType, InPlace.value, InPlace.MinefieldSensorType, Codec.MinefieldSensorType, MinefieldSensorType.init, Param.put, Tree.change, value_asIs, value_orFresh, value_copy, Tree.or_list, MinefieldSensorType.members, Tree.ints, Tree.objs, Tree.optInt, Tree.optObj, Tree.intOr, Tree.optFloat, Tree.noneOr, IntercomParametersValue.tree])

theorem GroupID.builds (simulationAddress groupNumber : Val × Tree) :
    Builds (GroupID.newHeap simulationAddress.1 groupNumber.1) [simulationAddress, groupNumber]
      (.obj [("simulationAddress", simulationAddress.2.or (.obj (SimulationAddress.members SimulationAddress.init))),
      ("groupNumber", groupNumber.2)]) := by
  have a : Fills (fun self => GroupID.initHeap self simulationAddress.1 groupNumber.1) [simulationAddress, groupNumber]
      (([("simulationAddress", .sc .absent), ("groupNumber", .sc .absent)] : List (String × Tree)) ++ []) []
      [("simulationAddress", simulationAddress.2.or (.obj (SimulationAddress.members SimulationAddress.init))),
      ("groupNumber", groupNumber.2)] := by
    unfold GroupID.initHeap
    refine .bind (.or (p := simulationAddress) SimulationAddress.makesNew (by simp [attrOf_putAttr_isSome, attrOf, GroupID.members])) ?_
    exact .cast (.arg (p := groupNumber) (by simp [attrOf_putAttr_isSome, attrOf, GroupID.members]))
      (by simp [putAttr, GroupID.members, Tree.ints, Tree.objs, Tree.optInt, Tree.optObj, Tree.intOr, Tree.optFloat, Tree.noneOr, IntercomParametersValue.tree])
  exact .new a

theorem Ctor.GroupID.lawful : Ctor.GroupID.Lawful := by
  intro kv kt e ok
  refine .select [("simulationAddress", .none), ("groupNumber", .int 0)] (by simp) e ?_
  exact .cast (GroupID.builds ((attrOf "simulationAddress" kv).getD (.sc (.none)), (attrOf "simulationAddress" kt).getD (.sc (.none))) ((attrOf "groupNumber" kv).getD (.sc (.int 0)), (attrOf "groupNumber" kt).getD (.sc (.int 0)))) (by
    simp [Ctor.built, Ctor.GroupID, HeapClass.GroupID, InPlace.value, InPlace.GroupID, Codec.GroupID, GroupID.init, Param.put, Tree.change, value_asIs, value_orFresh, value_copy, Tree.or_list, GroupID.members, Tree.ints, Tree.objs, Tree.optInt, Tree.optObj, Tree.intOr, Tree.optFloat, Tree.noneOr, IntercomParametersValue.tree])

theorem LayerHeader.builds (layerNumber layerSpecificInformation length : Val × Tree) :
    Builds (LayerHeader.newHeap layerNumber.1 layerSpecificInformation.1 length.1) [layerNumber, layerSpecificInformation, length]
      (.obj [("layerNumber", layerNumber.2), ("layerSpecificInformation", layerSpecificInformation.2),
      ("length", length.2)]) := by
  have a : Fills (fun self => LayerHeader.initHeap self layerNumber.1 layerSpecificInformation.1 length.1) [layerNumber, layerSpecificInformation, length]
      (([("layerNumber", .sc .absent), ("layerSpecificInformation", .sc .absent), ("length", .sc .absent)] : List (String × Tree)) ++ []) []
      [("layerNumber", layerNumber.2), ("layerSpecificInformation", layerSpecificInformation.2),
      ("length", length.2)] := by
    unfold LayerHeader.initHeap
    refine .bind (.arg (p := layerNumber) (by simp [attrOf_putAttr_isSome, attrOf, LayerHeader.members])) ?_
    refine .bind (.arg (p := layerSpecificInformation) (by simp [attrOf_putAttr_isSome, attrOf, LayerHeader.members])) ?_
    exact .cast (.arg (p := length) (by simp [attrOf_putAttr_isSome, attrOf, LayerHeader.members]))
      (by simp [putAttr, LayerHeader.members, Tree.ints, Tree.objs, Tree.optInt, Tree.optObj, Tree.intOr, Tree.optFloat, Tree.noneOr, IntercomParametersValue.tree])
  exact .new a

theorem Ctor.LayerHeader.lawful : Ctor.LayerHeader.Lawful := by
  intro kv kt e ok
  refine .select [("layerNumber", .int 0), ("layerSpecificInformation", .int 0), ("length", .int 0)] (by simp) e ?_
  exact .cast (LayerHeader.builds ((attrOf "layerNumber" kv).getD (.sc (.int 0)), (attrOf "layerNumber" kt).getD (.sc (.int 0))) ((attrOf "layerSpecificInformation" kv).getD (.sc (.int 0)), (attrOf "layerSpecificInformation" kt).getD (.sc (.int 0))) ((attrOf "length" kv).getD (.sc (.int 0)), (attrOf "length" kt).getD (.sc (.int 0)))) (by
    simp [Ctor.built, Ctor.LayerHeader, HeapClass.LayerHeader, InPlace.value, InPlace.LayerHeader, Codec.LayerHeader, LayerHeader.init, Param.put, Tree.change, value_asIs, value_orFresh, value_copy, Tree.or_list, LayerHeader.members, Tree.ints, Tree.objs, Tree.optInt, Tree.optObj, Tree.intOr, Tree.optFloat, Tree.noneOr, IntercomParametersValue.tree])

theorem UnsignedDISInteger.builds (val : Val × Tree) :
    Builds (UnsignedDISInteger.newHeap val.1) [val]
      (.obj [("val", val.2)]) := by
  have a : Fills (fun self => UnsignedDISInteger.initHeap self val.1) [val]
      (([("val", .sc .absent)] : List (String × Tree)) ++ []) []
      [("val", val.2)] := by
    unfold UnsignedDISInteger.initHeap
    exact .cast (.arg (p := val) (by simp [attrOf_putAttr_isSome, attrOf, UnsignedDISInteger.members]))
      (by simp [putAttr, UnsignedDISInteger.members, Tree.ints, Tree.objs, Tree.optInt, Tree.optObj, Tree.intOr, Tree.optFloat, Tree.noneOr, IntercomParametersValue.tree])
  exact .new a

theorem Ctor.UnsignedDISInteger.lawful : Ctor.UnsignedDISInteger.Lawful := by
  intro kv kt e ok
  refine .select [("val", .int 0)] (by simp) e ?_
  exact .cast (UnsignedDISInteger.builds ((attrOf "val" kv).getD (.sc (.int 0)), (attrOf "val" kt).getD (.sc (.int 0)))) (by
    simp [Ctor.built, Ctor.UnsignedDISInteger, HeapClass.UnsignedDISInteger, InPlace.value, InPlace.UnsignedDISInteger, Codec.UnsignedDISInteger, UnsignedDISInteger.init, Param.put, Tree.change, value_asIs, value_orFresh, value_copy, Tree.or_list, UnsignedDISInteger.members, Tree.ints, Tree.objs, Tree.optInt, Tree.optObj, Tree.intOr, Tree.optFloat, Tree.noneOr, IntercomParametersValue.tree])

theorem DeadReckoningParameters.builds (deadReckoningAlgorithm parameters entityLinearAcceleration entityAngularVelocity : Val × Tree) :
    Builds (DeadReckoningParameters.newHeap deadReckoningAlgorithm.1 parameters.1 entityLinearAcceleration.1 entityAngularVelocity.1) [deadReckoningAlgorithm, parameters, entityLinearAcceleration, entityAngularVelocity]
      (.obj [("deadReckoningAlgorithm", deadReckoningAlgorithm.2),
      ("parameters", parameters.2.or (.list ((List.replicate 15 (0 : Int)).map fun v => .sc (.int v)))),
      ("entityLinearAcceleration", entityLinearAcceleration.2.or (.obj (Vector3Float.members Vector3Float.init))),
      ("entityAngularVelocity", entityAngularVelocity.2.or (.obj (Vector3Float.members Vector3Float.init)))]) := by
  have a : Fills (fun self => DeadReckoningParameters.initHeap self deadReckoningAlgorithm.1 parameters.1 entityLinearAcceleration.1 entityAngularVelocity.1) [deadReckoningAlgorithm, parameters, entityLinearAcceleration, entityAngularVelocity]
      (([("deadReckoningAlgorithm", .sc .absent), ("parameters", .sc .absent), ("entityLinearAcceleration", .sc .absent), ("entityAngularVelocity", .sc .absent)] : List (String × Tree)) ++ []) []
      [("deadReckoningAlgorithm", deadReckoningAlgorithm.2),
      ("parameters", parameters.2.or (.list ((List.replicate 15 (0 : Int)).map fun v => .sc (.int v)))),
      ("entityLinearAcceleration", entityLinearAcceleration.2.or (.obj (Vector3Float.members Vector3Float.init))),
      ("entityAngularVelocity", entityAngularVelocity.2.or (.obj (Vector3Float.members Vector3Float.init)))] := by
    unfold DeadReckoningParameters.initHeap
    refine .bind (.arg (p := deadReckoningAlgorithm) (by simp [attrOf_putAttr_isSome, attrOf, DeadReckoningParameters.members])) ?_
    refine .bind (.or (p := parameters) (.zeros 15) (by simp [attrOf_putAttr_isSome, attrOf, DeadReckoningParameters.members])) ?_
    refine .bind (.or (p := entityLinearAcceleration) Vector3Float.makesNew (by simp [attrOf_putAttr_isSome, attrOf, DeadReckoningParameters.members])) ?_
    exact .cast (.or (p := entityAngularVelocity) Vector3Float.makesNew (by simp [attrOf_putAttr_isSome, attrOf, DeadReckoningParameters.members]))
      (by simp [putAttr, DeadReckoningParameters.members, Tree.ints, Tree.objs, Tree.optInt, Tree.optObj, Tree.intOr, Tree.optFloat, Tree.noneOr, IntercomParametersValue.tree])
  exact .new a

theorem Ctor.DeadReckoningParameters.lawful : Ctor.DeadReckoningParameters.Lawful := by
  intro kv kt e ok
  refine .select [("deadReckoningAlgorithm", .int 0), ("parameters", .none), ("entityLinearAcceleration", .none), ("entityAngularVelocity", .none)] (by simp) e ?_
  exact .cast (DeadReckoningParameters.builds ((attrOf "deadReckoningAlgorithm" kv).getD (.sc (.int 0)), (attrOf "deadReckoningAlgorithm" kt).getD (.sc (.int 0))) ((attrOf "parameters" kv).getD (.sc (.none)), (attrOf "parameters" kt).getD (.sc (.none))) ((attrOf "entityLinearAcceleration" kv).getD (.sc (.none)), (attrOf "entityLinearAcceleration" kt).getD (.sc (.none))) ((attrOf "entityAngularVelocity" kv).getD (.sc (.none)), (attrOf "entityAngularVelocity" kt).getD (.sc (.none)))) (by
    simp [Ctor.built, Ctor.DeadReckoningParameters, HeapClass.DeadReckoningParameters, InPlace.value, InPlace.DeadReckoningParameters, Codec.DeadReckoningParameters, DeadReckoningParameters.init, Param.put, Tree.change, value_asIs, value_orFresh, value_copy, Tree.or_list, DeadReckoningParameters.members, Tree.ints, Tree.objs, Tree.optInt, Tree.optObj, Tree.intOr, Tree.optFloat, Tree.noneOr, IntercomParametersValue.tree])

theorem ProtocolMode.builds (protocolMode : Val × Tree) :
    Builds (ProtocolMode.newHeap protocolMode.1) [protocolMode]
      (.obj [("protocolMode", protocolMode.2)]) := by
  have a : Fills (fun self => ProtocolMode.initHeap self protocolMode.1) [protocolMode]
      (([("protocolMode", .sc .absent)] : List (String × Tree)) ++ []) []
      [("protocolMode", protocolMode.2)] := by
    unfold ProtocolMode.initHeap
    exact .cast (.arg (p := protocolMode) (by simp [attrOf_putAttr_isSome, attrOf, ProtocolMode.members]))
      (by simp [putAttr, ProtocolMode.members, Tree.ints, Tree.objs, Tree.optInt, Tree.optObj, Tree.intOr, Tree.optFloat, Tree.noneOr, IntercomParametersValue.tree])
  exact .new a

theorem Ctor.ProtocolMode.lawful : Ctor.ProtocolMode.Lawful := by
  intro kv kt e ok
  refine .select [("protocolMode", .int 0)] (by simp) e ?_
  exact .cast (ProtocolMode.builds ((attrOf "protocolMode" kv).getD (.sc (.int 0)), (attrOf "protocolMode" kt).getD (.sc (.int 0)))) (by
    simp [Ctor.built, Ctor.ProtocolMode, HeapClass.ProtocolMode, InPlace.value, InPlace.ProtocolMode, Codec.ProtocolMode, ProtocolMode.init, Param.put, Tree.change, value_asIs, value_orFresh, value_copy, Tree.or_list, ProtocolMode.members, Tree.ints, Tree.objs, Tree.optInt, Tree.optObj, Tree.intOr, Tree.optFloat, Tree.noneOr, IntercomParametersValue.tree])

theorem AngleDeception.builds (emitterNumber beamNumber stateIndicator azimuthOffset azimuthWidth azimuthPullRate azimuthPullAcceleration elevationOffset elevationWidth elevationPullRate elevationPullAcceleration : Val × Tree) :
    Builds (AngleDeception.newHeap emitterNumber.1 beamNumber.1 stateIndicator.1 azimuthOffset.1 azimuthWidth.1 azimuthPullRate.1 azimuthPullAcceleration.1 elevationOffset.1 elevationWidth.1 elevationPullRate.1 elevationPullAcceleration.1) [emitterNumber, beamNumber, stateIndicator, azimuthOffset, azimuthWidth, azimuthPullRate, azimuthPullAcceleration, elevationOffset, elevationWidth, elevationPullRate, elevationPullAcceleration]
      (.obj [("recordType", .sc (.int 3501)), ("recordLength", .sc (.int 48)), ("padding", .sc (.int 0)),
      ("emitterNumber", emitterNumber.2), ("beamNumber", beamNumber.2), ("stateIndicator", stateIndicator.2),
      ("padding2", .sc (.int 0)), ("azimuthOffset", azimuthOffset.2), ("azimuthWidth", azimuthWidth.2),
      ("azimuthPullRate", azimuthPullRate.2), ("azimuthPullAcceleration", azimuthPullAcceleration.2),
      ("elevationOffset", elevationOffset.2), ("elevationWidth", elevationWidth.2),
      ("elevationPullRate", elevationPullRate.2), ("elevationPullAcceleration", elevationPullAcceleration.2),
      ("padding3", .sc (.int 0))]) := by
  have a : Fills (fun self => AngleDeception.initHeap self emitterNumber.1 beamNumber.1 stateIndicator.1 azimuthOffset.1 azimuthWidth.1 azimuthPullRate.1 azimuthPullAcceleration.1 elevationOffset.1 elevationWidth.1 elevationPullRate.1 elevationPullAcceleration.1) [emitterNumber, beamNumber, stateIndicator, azimuthOffset, azimuthWidth, azimuthPullRate, azimuthPullAcceleration, elevationOffset, elevationWidth, elevationPullRate, elevationPullAcceleration]
      (([("recordType", .sc (.int 3501)), ("recordLength", .sc (.int 48)), ("padding", .sc .absent), ("emitterNumber", .sc .absent), ("beamNumber", .sc .absent), ("stateIndicator", .sc .absent), ("padding2", .sc .absent), ("azimuthOffset", .sc .absent), ("azimuthWidth", .sc .absent), ("azimuthPullRate", .sc .absent), ("azimuthPullAcceleration", .sc .absent), ("elevationOffset", .sc .absent), ("elevationWidth", .sc .absent), ("elevationPullRate", .sc .absent), ("elevationPullAcceleration", .sc .absent), ("padding3", .sc .absent)] : List (String × Tree)) ++ []) []
      [("recordType", .sc (.int 3501)), ("recordLength", .sc (.int 48)), ("padding", .sc (.int 0)),
      ("emitterNumber", emitterNumber.2), ("beamNumber", beamNumber.2), ("stateIndicator", stateIndicator.2),
      ("padding2", .sc (.int 0)), ("azimuthOffset", azimuthOffset.2), ("azimuthWidth", azimuthWidth.2),
      ("azimuthPullRate", azimuthPullRate.2), ("azimuthPullAcceleration", azimuthPullAcceleration.2),
      ("elevationOffset", elevationOffset.2), ("elevationWidth", elevationWidth.2),
      ("elevationPullRate", elevationPullRate.2), ("elevationPullAcceleration", elevationPullAcceleration.2),
      ("padding3", .sc (.int 0))] := by
    unfold AngleDeception.initHeap
    refine .bind (.inits (.set' (by simp [attrOf_putAttr_isSome, attrOf, AngleDeception.members]))) ?_
    refine .bind (.arg (p := emitterNumber) (by simp [attrOf_putAttr_isSome, attrOf, AngleDeception.members])) ?_
    refine .bind (.arg (p := beamNumber) (by simp [attrOf_putAttr_isSome, attrOf, AngleDeception.members])) ?_
    refine .bind (.arg (p := stateIndicator) (by simp [attrOf_putAttr_isSome, attrOf, AngleDeception.members])) ?_
    refine .bind (.inits (.set' (by simp [attrOf_putAttr_isSome, attrOf, AngleDeception.members]))) ?_
    refine .bind (.arg (p := azimuthOffset) (by simp [attrOf_putAttr_isSome, attrOf, AngleDeception.members])) ?_
    refine .bind (.arg (p := azimuthWidth) (by simp [attrOf_putAttr_isSome, attrOf, AngleDeception.members])) ?_
    refine .bind (.arg (p := azimuthPullRate) (by simp [attrOf_putAttr_isSome, attrOf, AngleDeception.members])) ?_
    refine .bind (.arg (p := azimuthPullAcceleration) (by simp [attrOf_putAttr_isSome, attrOf, AngleDeception.members])) ?_
    refine .bind (.arg (p := elevationOffset) (by simp [attrOf_putAttr_isSome, attrOf, AngleDeception.members])) ?_
    refine .bind (.arg (p := elevationWidth) (by simp [attrOf_putAttr_isSome, attrOf, AngleDeception.members])) ?_
    refine .bind (.arg (p := elevationPullRate) (by simp [attrOf_putAttr_isSome, attrOf, AngleDeception.members])) ?_
    refine .bind (.arg (p := elevationPullAcceleration) (by simp [attrOf_putAttr_isSome, attrOf, AngleDeception.members])) ?_
    exact .cast (.inits (.set' (by simp [attrOf_putAttr_isSome, attrOf, AngleDeception.members])))
      (by simp [putAttr, AngleDeception.members, Tree.ints, Tree.objs, Tree.optInt, Tree.optObj, Tree.intOr, Tree.optFloat, Tree.noneOr, IntercomParametersValue.tree])
  exact .new a

theorem Ctor.AngleDeception.lawful : Ctor.AngleDeception.Lawful := by
  intro kv kt e ok
  refine .select [("emitterNumber", .int 0), ("beamNumber", .int 0), ("stateIndicator", .int 0), ("azimuthOffset", .float 0x0000000000000000), ("azimuthWidth", .float 0x0000000000000000), ("azimuthPullRate", .float 0x0000000000000000), ("azimuthPullAcceleration", .float 0x0000000000000000), ("elevationOffset", .float 0x0000000000000000), ("elevationWidth", .float 0x0000000000000000), ("elevationPullRate", .float 0x0000000000000000), ("elevationPullAcceleration", .float 0x0000000000000000)] (by simp) e ?_
  exact .cast (AngleDeception.builds ((attrOf "emitterNumber" kv).getD (.sc (.int 0)), (attrOf "emitterNumber" kt).getD (.sc (.int 0))) ((attrOf "beamNumber" kv).getD (.sc (.int 0)), (attrOf "beamNumber" kt).getD (.sc (.int 0))) ((attrOf "stateIndicator" kv).getD (.sc (.int 0)), (attrOf "stateIndicator" kt).getD (.sc (.int 0))) ((attrOf "azimuthOffset" kv).getD (.sc (.float 0x0000000000000000)), (attrOf "azimuthOffset" kt).getD (.sc (.float 0x0000000000000000))) ((attrOf "azimuthWidth" kv).getD (.sc (.float 0x0000000000000000)), (attrOf "azimuthWidth" kt).getD (.sc (.float 0x0000000000000000))) ((attrOf "azimuthPullRate" kv).getD (.sc (.float 0x0000000000000000)), (attrOf "azimuthPullRate" kt).getD (.sc (.float 0x0000000000000000))) ((attrOf "azimuthPullAcceleration" kv).getD (.sc (.float 0x0000000000000000)), (attrOf "azimuthPullAcceleration" kt).getD (.sc (.float 0x0000000000000000))) ((attrOf "elevationOffset" kv).getD (.sc (.float 0x0000000000000000)), (attrOf "elevationOffset" kt).getD (.sc (.float 0x0000000000000000))) ((attrOf "elevationWidth" kv).getD (.sc (.float 0x0000000000000000)), (attrOf "elevationWidth" kt).getD (.sc (.float 0x0000000000000000))) ((attrOf "elevationPullRate" kv).getD (.sc (.float 0x0000000000000000)), (attrOf "elevationPullRate" kt).getD (.sc (.float 0x0000000000000000))) ((attrOf "elevationPullAcceleration" kv).getD (.sc (.float 0x0000000000000000)), (attrOf "elevationPullAcceleration" kt).getD (.sc (.float 0x0000000000000000)))) (by
    simp [Ctor.built, Ctor.AngleDeception, HeapClass.AngleDeception, InPlace.value, InPlace.AngleDeception, Codec.AngleDeception, AngleDeception.init, Param.put, Tree.change, value_asIs, value_orFresh, value_copy, Tree.or_list, AngleDeception.members, Tree.ints, Tree.objs, Tree.optInt, Tree.optObj, Tree.intOr, Tree.optFloat, Tree.noneOr, IntercomParametersValue.tree])

theorem EntityAssociation.builds (changeIndicator associationStatus associationType entityID ownStationLocation physicalConnectionType groupMemberType groupNumber : Val × Tree) :
    Builds (EntityAssociation.newHeap changeIndicator.1 associationStatus.1 associationType.1 entityID.1 ownStationLocation.1 physicalConnectionType.1 groupMemberType.1 groupNumber.1) [changeIndicator, associationStatus, associationType, entityID, ownStationLocation, physicalConnectionType, groupMemberType, groupNumber]
      (.obj [("recordType", .sc (.int 4)), ("changeIndicator", changeIndicator.2),
      ("associationStatus", associationStatus.2), ("associationType", associationType.2),
      ("entityID", entityID.2.or (.obj (EntityIdentifier.members EntityIdentifier.init))),
      ("ownStationLocation", ownStationLocation.2), ("physicalConnectionType", physicalConnectionType.2),
      ("groupMemberType", groupMemberType.2), ("groupNumber", groupNumber.2)]) := by
  have a : Fills (fun self => EntityAssociation.initHeap self changeIndicator.1 associationStatus.1 associationType.1 entityID.1 ownStationLocation.1 physicalConnectionType.1 groupMemberType.1 groupNumber.1) [changeIndicator, associationStatus, associationType, entityID, ownStationLocation, physicalConnectionType, groupMemberType, groupNumber]
      (([("recordType", .sc (.int 4)), ("changeIndicator", .sc .absent), ("associationStatus", .sc .absent), ("associationType", .sc .absent), ("entityID", .sc .absent), ("ownStationLocation", .sc .absent), ("physicalConnectionType", .sc .absent), ("groupMemberType", .sc .absent), ("groupNumber", .sc .absent)] : List (String × Tree)) ++ []) []
      [("recordType", .sc (.int 4)), ("changeIndicator", changeIndicator.2),
      ("associationStatus", associationStatus.2), ("associationType", associationType.2),
      ("entityID", entityID.2.or (.obj (EntityIdentifier.members EntityIdentifier.init))),
      ("ownStationLocation", ownStationLocation.2), ("physicalConnectionType", physicalConnectionType.2),
      ("groupMemberType", groupMemberType.2), ("groupNumber", groupNumber.2)] := by
    unfold EntityAssociation.initHeap
    refine .bind (.arg (p := changeIndicator) (by simp [attrOf_putAttr_isSome, attrOf, EntityAssociation.members])) ?_
    refine .bind (.arg (p := associationStatus) (by simp [attrOf_putAttr_isSome, attrOf, EntityAssociation.members])) ?_
    refine .bind (.arg (p := associationType) (by simp [attrOf_putAttr_isSome, attrOf, EntityAssociation.members])) ?_
    refine .bind (.or (p := entityID) EntityIdentifier.makesNew (by simp [attrOf_putAttr_isSome, attrOf, EntityAssociation.members])) ?_
    refine .bind (.arg (p := ownStationLocation) (by simp [attrOf_putAttr_isSome, attrOf, EntityAssociation.members])) ?_
    refine .bind (.arg (p := physicalConnectionType) (by simp [attrOf_putAttr_isSome, attrOf, EntityAssociation.members])) ?_
    refine .bind (.arg (p := groupMemberType) (by simp [attrOf_putAttr_isSome, attrOf, EntityAssociation.members])) ?_
    exact .cast (.arg (p := groupNumber) (by simp [attrOf_putAttr_isSome, attrOf, EntityAssociation.members]))
      (by simp [putAttr, EntityAssociation.members, Tree.ints, Tree.objs, Tree.optInt, Tree.optObj, Tree.intOr, Tree.optFloat, Tree.noneOr, IntercomParametersValue.tree])
  exact .new a

theorem Ctor.EntityAssociation.lawful : Ctor.EntityAssociation.Lawful := by
  intro kv kt e ok
  refine .select [("changeIndicator", .int 0), ("associationStatus", .int 0), ("associationType", .int 0), ("entityID", .none), ("ownStationLocation", .int 0), ("physicalConnectionType", .int 0), ("groupMemberType", .int 0), ("groupNumber", .int 0)] (by simp) e ?_
  exact .cast (EntityAssociation.builds ((attrOf "changeIndicator" kv).getD (.sc (.int 0)), (attrOf "changeIndicator" kt).getD (.sc (.int 0))) ((attrOf "associationStatus" kv).getD (.sc (.int 0)), (attrOf "associationStatus" kt).getD (.sc (.int 0))) ((attrOf "associationType" kv).getD (.sc (.int 0)), (attrOf "associationType" kt).getD (.sc (.int 0))) ((attrOf "entityID" kv).getD (.sc (.none)), (attrOf "entityID" kt).getD (.sc (.none))) ((attrOf "ownStationLocation" kv).getD (.sc (.int 0)), (attrOf "ownStationLocation" kt).getD (.sc (.int 0))) ((attrOf "physicalConnectionType" kv).getD (.sc (.int 0)), (attrOf "physicalConnectionType" kt).getD (.sc (.int 0))) ((attrOf "groupMemberType" kv).getD (.sc (.int 0)), (attrOf "groupMemberType" kt).getD (.sc (.int 0))) ((attrOf "groupNumber" kv).getD (.sc (.int 0)), (attrOf "groupNumber" kt).getD (.sc (.int 0)))) (by
    simp [Ctor.built, Ctor.EntityAssociation, HeapClass.EntityAssociation, InPlace.value, InPlace.EntityAssociation, Codec.EntityAssociation, EntityAssociation.init, Param.put, Tree.change, value_asIs, value_orFresh, value_copy, Tree.or_list, EntityAssociation.members, Tree.ints, Tree.objs, Tree.optInt, Tree.optObj, Tree.intOr, Tree.optFloat, Tree.noneOr, IntercomParametersValue.tree])

theorem VectoringNozzleSystem.builds (horizontalDeflectionAngle verticalDeflectionAngle : Val × Tree) :
    Builds (VectoringNozzleSystem.newHeap horizontalDeflectionAngle.1 verticalDeflectionAngle.1) [horizontalDeflectionAngle, verticalDeflectionAngle]
      (.obj [("horizontalDeflectionAngle", horizontalDeflectionAngle.2),
      ("verticalDeflectionAngle", verticalDeflectionAngle.2)]) := by
  have a : Fills (fun self => VectoringNozzleSystem.initHeap self horizontalDeflectionAngle.1 verticalDeflectionAngle.1) [horizontalDeflectionAngle, verticalDeflectionAngle]
      (([("horizontalDeflectionAngle", .sc .absent), ("verticalDeflectionAngle", .sc .absent)] : List (String × Tree)) ++ []) []
      [("horizontalDeflectionAngle", horizontalDeflectionAngle.2),
      ("verticalDeflectionAngle", verticalDeflectionAngle.2)] := by
    unfold VectoringNozzleSystem.initHeap
    refine .bind (.arg (p := horizontalDeflectionAngle) (by simp [attrOf_putAttr_isSome, attrOf, VectoringNozzleSystem.members])) ?_
    exact .cast (.arg (p := verticalDeflectionAngle) (by simp [attrOf_putAttr_isSome, attrOf, VectoringNozzleSystem.members]))
      (by simp [putAttr, VectoringNozzleSystem.members, Tree.ints, Tree.objs, Tree.optInt, Tree.optObj, Tree.intOr, Tree.optFloat, Tree.noneOr, IntercomParametersValue.tree])
  exact .new a

theorem Ctor.VectoringNozzleSystem.lawful : Ctor.VectoringNozzleSystem.Lawful := by
  intro kv kt e ok
  refine .select [("horizontalDeflectionAngle", .float 0x0000000000000000), ("verticalDeflectionAngle", .float 0x0000000000000000)] (by simp) e ?_
  exact .cast (VectoringNozzleSystem.builds ((attrOf "horizontalDeflectionAngle" kv).getD (.sc (.float 0x0000000000000000)), (attrOf "horizontalDeflectionAngle" kt).getD (.sc (.float 0x0000000000000000))) ((attrOf "verticalDeflectionAngle" kv).getD (.sc (.float 0x0000000000000000)), (attrOf "verticalDeflectionAngle" kt).getD (.sc (.float 0x0000000000000000)))) (by
    simp [Ctor.built, Ctor.VectoringNozzleSystem, HeapClass.VectoringNozzleSystem, InPlace.value, InPlace.VectoringNozzleSystem, Codec.VectoringNozzleSystem, VectoringNozzleSystem.init, Param.put, Tree.change, value_asIs, value_orFresh, value_copy, Tree.or_list, VectoringNozzleSystem.members, Tree.ints, Tree.objs, Tree.optInt, Tree.optObj, Tree.intOr, Tree.optFloat, Tree.noneOr, IntercomParametersValue.tree])

theorem FalseTargetsAttribute.builds (emitterNumber beamNumber stateIndicator falseTargetCount walkSpeed walkAcceleration maximumWalkDistance keepTime echoSpacing : Val × Tree) :
    Builds (FalseTargetsAttribute.newHeap emitterNumber.1 beamNumber.1 stateIndicator.1 falseTargetCount.1 walkSpeed.1 walkAcceleration.1 maximumWalkDistance.1 keepTime.1 echoSpacing.1) [emitterNumber, beamNumber, stateIndicator, falseTargetCount, walkSpeed, walkAcceleration, maximumWalkDistance, keepTime, echoSpacing]
      (.obj [("recordType", .sc (.int 3502)), ("recordLength", .sc (.int 48)), ("padding", .sc (.int 0)),
      ("emitterNumber", emitterNumber.2), ("beamNumber", beamNumber.2), ("stateIndicator", stateIndicator.2),
      ("padding2", .sc (.int 0)), ("falseTargetCount", falseTargetCount.2), ("walkSpeed", walkSpeed.2),
      ("walkAcceleration", walkAcceleration.2), ("maximumWalkDistance", maximumWalkDistance.2),
      ("keepTime", keepTime.2), ("echoSpacing", echoSpacing.2)]) := by
  have a : Fills (fun self => FalseTargetsAttribute.initHeap self emitterNumber.1 beamNumber.1 stateIndicator.1 falseTargetCount.1 walkSpeed.1 walkAcceleration.1 maximumWalkDistance.1 keepTime.1 echoSpacing.1) [emitterNumber, beamNumber, stateIndicator, falseTargetCount, walkSpeed, walkAcceleration, maximumWalkDistance, keepTime, echoSpacing]
      (([("recordType", .sc (.int 3502)), ("recordLength", .sc (.int 48)), ("padding", .sc .absent), ("emitterNumber", .sc .absent), ("beamNumber", .sc .absent), ("stateIndicator", .sc .absent), ("padding2", .sc .absent), ("falseTargetCount", .sc .absent), ("walkSpeed", .sc .absent), ("walkAcceleration", .sc .absent), ("maximumWalkDistance", .sc .absent), ("keepTime", .sc .absent), ("echoSpacing", .sc .absent)] : List (String × Tree)) ++ []) []
      [("recordType", .sc (.int 3502)), ("recordLength", .sc (.int 48)), ("padding", .sc (.int 0)),
      ("emitterNumber", emitterNumber.2), ("beamNumber", beamNumber.2), ("stateIndicator", stateIndicator.2),
      ("padding2", .sc (.int 0)), ("falseTargetCount", falseTargetCount.2), ("walkSpeed", walkSpeed.2),
      ("walkAcceleration", walkAcceleration.2), ("maximumWalkDistance", maximumWalkDistance.2),
      ("keepTime", keepTime.2), ("echoSpacing", echoSpacing.2)] := by
    unfold FalseTargetsAttribute.initHeap
    refine .bind (.inits (.set' (by simp [attrOf_putAttr_isSome, attrOf, FalseTargetsAttribute.members]))) ?_
    refine .bind (.arg (p := emitterNumber) (by simp [attrOf_putAttr_isSome, attrOf, FalseTargetsAttribute.members])) ?_
    refine .bind (.arg (p := beamNumber) (by simp [attrOf_putAttr_isSome, attrOf, FalseTargetsAttribute.members])) ?_
    refine .bind (.arg (p := stateIndicator) (by simp [attrOf_putAttr_isSome, attrOf, FalseTargetsAttribute.members])) ?_
    refine .bind (.inits (.set' (by simp [attrOf_putAttr_isSome, attrOf, FalseTargetsAttribute.members]))) ?_
    refine .bind (.arg (p := falseTargetCount) (by simp [attrOf_putAttr_isSome, attrOf, FalseTargetsAttribute.members])) ?_
    refine .bind (.arg (p := walkSpeed) (by simp [attrOf_putAttr_isSome, attrOf, FalseTargetsAttribute.members])) ?_
    refine .bind (.arg (p := walkAcceleration) (by simp [attrOf_putAttr_isSome, attrOf, FalseTargetsAttribute.members])) ?_
    refine .bind (.arg (p := maximumWalkDistance) (by simp [attrOf_putAttr_isSome, attrOf, FalseTargetsAttribute.members])) ?_
    refine .bind (.arg (p := keepTime) (by simp [attrOf_putAttr_isSome, attrOf, FalseTargetsAttribute.members])) ?_
    exact .cast (.arg (p := echoSpacing) (by simp [attrOf_putAttr_isSome, attrOf, FalseTargetsAttribute.members]))
      (by simp [putAttr, FalseTargetsAttribute.members, Tree.ints, Tree.objs, Tree.optInt, Tree.optObj, Tree.intOr, Tree.optFloat, Tree.noneOr, IntercomParametersValue.tree])
  exact .new a

theorem Ctor.FalseTargetsAttribute.lawful : Ctor.FalseTargetsAttribute.Lawful := by
  intro kv kt e ok
  refine .select [("emitterNumber", .int 0), ("beamNumber", .int 0), ("stateIndicator", .int 0), ("falseTargetCount", .int 0), ("walkSpeed", .float 0x0000000000000000), ("walkAcceleration", .float 0x0000000000000000), ("maximumWalkDistance", .float 0x0000000000000000), ("keepTime", .float 0x0000000000000000), ("echoSpacing", .float 0x0000000000000000)] (by simp) e ?_
  exact .cast (FalseTargetsAttribute.builds ((attrOf "emitterNumber" kv).getD (.sc (.int 0)), (attrOf "emitterNumber" kt).getD (.sc (.int 0))) ((attrOf "beamNumber" kv).getD (.sc (.int 0)), (attrOf "beamNumber" kt).getD (.sc (.int 0))) ((attrOf "stateIndicator" kv).getD (.sc (.int 0)), (attrOf "stateIndicator" kt).getD (.sc (.int 0))) ((attrOf "falseTargetCount" kv).getD (.sc (.int 0)), (attrOf "falseTargetCount" kt).getD (.sc (.int 0))) ((attrOf "walkSpeed" kv).getD (.sc (.float 0x0000000000000000)), (attrOf "walkSpeed" kt).getD (.sc (.float 0x0000000000000000))) ((attrOf "walkAcceleration" kv).getD (.sc (.float 0x0000000000000000)), (attrOf "walkAcceleration" kt).getD (.sc (.float 0x0000000000000000))) ((attrOf "maximumWalkDistance" kv).getD (.sc (.float 0x0000000000000000)), (attrOf "maximumWalkDistance" kt).getD (.sc (.float 0x0000000000000000))) ((attrOf "keepTime" kv).getD (.sc (.float 0x0000000000000000)), (attrOf "keepTime" kt).getD (.sc (.float 0x0000000000000000))) ((attrOf "echoSpacing" kv).getD (.sc (.float 0x0000000000000000)), (attrOf "echoSpacing" kt).getD (.sc (.float 0x0000000000000000)))) (by
    simp [Ctor.built, Ctor.FalseTargetsAttribute, HeapClass.FalseTargetsAttribute, InPlace.value, InPlace.FalseTargetsAttribute, Codec.FalseTargetsAttribute, FalseTargetsAttribute.init, Param.put, Tree.change, value_asIs, value_orFresh, value_copy, Tree.or_list, FalseTargetsAttribute.members, Tree.ints, Tree.objs, Tree.optInt, Tree.optObj, Tree.intOr, Tree.optFloat, Tree.noneOr, IntercomParametersValue.tree])

theorem MinefieldIdentifier.builds (simulationAddress minefieldNumber : Val × Tree) :
    Builds (MinefieldIdentifier.newHeap simulationAddress.1 minefieldNumber.1) [simulationAddress, minefieldNumber]
      (.obj [("simulationAddress", simulationAddress.2.or (.obj (SimulationAddress.members SimulationAddress.init))),
      ("minefieldNumber", minefieldNumber.2)]) := by
  have a : Fills (fun self => MinefieldIdentifier.initHeap self simulationAddress.1 minefieldNumber.1) [simulationAddress, minefieldNumber]
      (([("simulationAddress", .sc .absent), ("minefieldNumber", .sc .absent)] : List (String × Tree)) ++ []) []
      [("simulationAddress", simulationAddress.2.or (.obj (SimulationAddress.members SimulationAddress.init))),
      ("minefieldNumber", minefieldNumber.2)] := by
    unfold MinefieldIdentifier.initHeap
    refine .bind (.or (p := simulationAddress) SimulationAddress.makesNew (by simp [attrOf_putAttr_isSome, attrOf, MinefieldIdentifier.members])) ?_
    exact .cast (.arg (p := minefieldNumber) (by simp [attrOf_putAttr_isSome, attrOf, MinefieldIdentifier.members]))
      (by simp [putAttr, MinefieldIdentifier.members, Tree.ints, Tree.objs, Tree.optInt, Tree.optObj, Tree.intOr, Tree.optFloat, Tree.noneOr, IntercomParametersValue.tree])
  exact .new a

theorem Ctor.MinefieldIdentifier.lawful : Ctor.MinefieldIdentifier.Lawful := by
  intro kv kt e ok
  refine .select [("simulationAddress", .none), ("minefieldNumber", .int 0)] (by simp) e ?_
  exact .cast (MinefieldIdentifier.builds ((attrOf "simulationAddress" kv).getD (.sc (.none)), (attrOf "simulationAddress" kt).getD (.sc (.none))) ((attrOf "minefieldNumber" kv).getD (.sc (.int 0)), (attrOf "minefieldNumber" kt).getD (.sc (.int 0)))) (by
    simp [Ctor.built, Ctor.MinefieldIdentifier, HeapClass.MinefieldIdentifier, InPlace.value, InPlace.MinefieldIdentifier, Codec.MinefieldIdentifier, MinefieldIdentifier.init, Param.put, Tree.change, value_asIs, value_orFresh, value_copy, Tree.or_list, MinefieldIdentifier.members, Tree.ints, Tree.objs, Tree.optInt, Tree.optObj, Tree.intOr, Tree.optFloat, Tree.noneOr, IntercomParametersValue.tree])

theorem RadioType.builds (domain country category subcategory specific extra : Val × Tree) :
    Builds (RadioType.newHeap domain.1 country.1 category.1 subcategory.1 specific.1 extra.1) [domain, country, category, subcategory, specific, extra]
      (.obj [("entityKind", .sc (.int 7)), ("domain", domain.2), ("country", country.2), ("category", category.2),
      ("subcategory", subcategory.2), ("specific", specific.2), ("extra", extra.2)]) := by
  have a : Fills (fun self => RadioType.initHeap self domain.1 country.1 category.1 subcategory.1 specific.1 extra.1) [domain, country, category, subcategory, specific, extra]
      (([("entityKind", .sc (.int 7)), ("domain", .sc .absent), ("country", .sc .absent), ("category", .sc .absent), ("subcategory", .sc .absent), ("specific", .sc .absent), ("extra", .sc .absent)] : List (String × Tree)) ++ []) []
      [("entityKind", .sc (.int 7)), ("domain", domain.2), ("country", country.2), ("category", category.2),
      ("subcategory", subcategory.2), ("specific", specific.2), ("extra", extra.2)] := by
    unfold RadioType.initHeap
    refine .bind (.arg (p := domain) (by simp [attrOf_putAttr_isSome, attrOf, RadioType.members])) ?_
    refine .bind (.arg (p := country) (by simp [attrOf_putAttr_isSome, attrOf, RadioType.members])) ?_
    refine .bind (.arg (p := category) (by simp [attrOf_putAttr_isSome, attrOf, RadioType.members])) ?_
    refine .bind (.arg (p := subcategory) (by simp [attrOf_putAttr_isSome, attrOf, RadioType.members])) ?_
    refine .bind (.arg (p := specific) (by simp [attrOf_putAttr_isSome, attrOf, RadioType.members])) ?_
    exact .cast (.arg (p := extra) (by simp [attrOf_putAttr_isSome, attrOf, RadioType.members]))
      (by simp [putAttr, RadioType.members, Tree.ints, Tree.objs, Tree.optInt, Tree.optObj, Tree.intOr, Tree.optFloat, Tree.noneOr, IntercomParametersValue.tree])
  exact .new a

theorem Ctor.RadioType.lawful : Ctor.RadioType.Lawful := by
  intro kv kt e ok
  refine .select [("domain", .int 0), ("country", .int 0), ("category", .int 0), ("subcategory", .int 0), ("specific", .int 0), ("extra", .int 0)] (by simp) e ?_
  exact .cast (RadioType.builds ((attrOf "domain" kv).getD (.sc (.int 0)), (attrOf "domain" kt).getD (.sc (.int 0))) ((attrOf "country" kv).getD (.sc (.int 0)), (attrOf "country" kt).getD (.sc (.int 0))) ((attrOf "category" kv).getD (.sc (.int 0)), (attrOf "category" kt).getD (.sc (.int 0))) ((attrOf "subcategory" kv).getD (.sc (.int 0)), (attrOf "subcategory" kt).getD (.sc (.int 0))) ((attrOf "specific" kv).getD (.sc (.int 0)), (attrOf "specific" kt).getD (.sc (.int 0))) ((attrOf "extra" kv).getD (.sc (.int 0)), (attrOf "extra" kt).getD (.sc (.int 0)))) (by
    simp [Ctor.built, Ctor.RadioType, HeapClass.RadioType, InPlace.value, InPlace.RadioType, Codec.RadioType, RadioType.init, Param.put, Tree.change, value_asIs, value_orFresh, value_copy, Tree.or_list, RadioType.members, Tree.ints, Tree.objs, Tree.optInt, Tree.optObj, Tree.intOr, Tree.optFloat, Tree.noneOr, IntercomParametersValue.tree])

theorem NamedLocationIdentification.builds (stationName stationNumber : Val × Tree) :
    Builds (NamedLocationIdentification.newHeap stationName.1 stationNumber.1) [stationName, stationNumber]
      (.obj [("stationName", stationName.2), ("stationNumber", stationNumber.2)]) := by
  have a : Fills (fun self => NamedLocationIdentification.initHeap self stationName.1 stationNumber.1) [stationName, stationNumber]
      (([("stationName", .sc .absent), ("stationNumber", .sc .absent)] : List (String × Tree)) ++ []) []
      [("stationName", stationName.2), ("stationNumber", stationNumber.2)] := by
    unfold NamedLocationIdentification.initHeap
    refine .bind (.arg (p := stationName) (by simp [attrOf_putAttr_isSome, attrOf, NamedLocationIdentification.members])) ?_
    exact .cast (.arg (p := stationNumber) (by simp [attrOf_putAttr_isSome, attrOf, NamedLocationIdentification.members]))
      (by simp [putAttr, NamedLocationIdentification.members, Tree.ints, Tree.objs, Tree.optInt, Tree.optObj, Tree.intOr, Tree.optFloat, Tree.noneOr, IntercomParametersValue.tree])
  exact .new a

theorem Ctor.NamedLocationIdentification.lawful : Ctor.NamedLocationIdentification.Lawful := by
  intro kv kt e ok
  refine .select [("stationName", .int 0), ("stationNumber", .int 0)] (by simp) e ?_
  exact .cast (NamedLocationIdentification.builds ((attrOf "stationName" kv).getD (.sc (.int 0)), (attrOf "stationName" kt).getD (.sc (.int 0))) ((attrOf "stationNumber" kv).getD (.sc (.int 0)), (attrOf "stationNumber" kt).getD (.sc (.int 0)))) (by
    simp [Ctor.built, Ctor.NamedLocationIdentification, HeapClass.NamedLocationIdentification, InPlace.value, InPlace.NamedLocationIdentification, Codec.NamedLocationIdentification, NamedLocationIdentification.init, Param.put, Tree.change, value_asIs, value_orFresh, value_copy, Tree.or_list, NamedLocationIdentification.members, Tree.ints, Tree.objs, Tree.optInt, Tree.optObj, Tree.intOr, Tree.optFloat, Tree.noneOr, IntercomParametersValue.tree])

theorem IFFDataSpecification.builds (iffDataRecords : Val × Tree) :
    Builds (IFFDataSpecification.newHeap iffDataRecords.1) [iffDataRecords]
      (.obj [("iffDataRecords", iffDataRecords.2.or (.list []))]) := by
  have a : Fills (fun self => IFFDataSpecification.initHeap self iffDataRecords.1) [iffDataRecords]
      (([("iffDataRecords", .sc .absent)] : List (String × Tree)) ++ []) []
      [("iffDataRecords", iffDataRecords.2.or (.list []))] := by
    unfold IFFDataSpecification.initHeap
    exact .cast (.or (p := iffDataRecords) .empty (by simp [attrOf_putAttr_isSome, attrOf, IFFDataSpecification.members]))
      (by simp [putAttr, IFFDataSpecification.members, Tree.ints, Tree.objs, Tree.optInt, Tree.optObj, Tree.intOr, Tree.optFloat, Tree.noneOr, IntercomParametersValue.tree])
  exact .new a

theorem Ctor.IFFDataSpecification.lawful : Ctor.IFFDataSpecification.Lawful := by
  intro kv kt e ok
  refine .select [("iffDataRecords", .none)] (by simp) e ?_
  exact .cast (IFFDataSpecification.builds ((attrOf "iffDataRecords" kv).getD (.sc (.none)), (attrOf "iffDataRecords" kt).getD (.sc (.none)))) (by
    simp [Ctor.built, Ctor.IFFDataSpecification, HeapClass.IFFDataSpecification, InPlace.value, InPlace.IFFDataSpecification, Codec.IFFDataSpecification, IFFDataSpecification.init, Param.put, Tree.change, value_asIs, value_orFresh, value_copy, Tree.or_list, IFFDataSpecification.members, Tree.ints, Tree.objs, Tree.optInt, Tree.optObj, Tree.intOr, Tree.optFloat, Tree.noneOr, IntercomParametersValue.tree])

theorem OwnershipStatus.builds (entityId ownershipStatus : Val × Tree) :
    Builds (OwnershipStatus.newHeap entityId.1 ownershipStatus.1) [entityId, ownershipStatus]
      (.obj [("entityId", entityId.2.or (.obj (EntityIdentifier.members EntityIdentifier.init))),
      ("ownershipStatus", ownershipStatus.2), ("padding", .sc (.int 0))]) := by
  have a : Fills (fun self => OwnershipStatus.initHeap self entityId.1 ownershipStatus.1) [entityId, ownershipStatus]
      (([("entityId", .sc .absent), ("ownershipStatus", .sc .absent), ("padding", .sc .absent)] : List (String × Tree)) ++ []) []
      [("entityId", entityId.2.or (.obj (EntityIdentifier.members EntityIdentifier.init))),
      ("ownershipStatus", ownershipStatus.2), ("padding", .sc (.int 0))] := by
    unfold OwnershipStatus.initHeap
    refine .bind (.or (p := entityId) EntityIdentifier.makesNew (by simp [attrOf_putAttr_isSome, attrOf, OwnershipStatus.members])) ?_
    refine .bind (.arg (p := ownershipStatus) (by simp [attrOf_putAttr_isSome, attrOf, OwnershipStatus.members])) ?_
    exact .cast (.inits (.set' (by simp [attrOf_putAttr_isSome, attrOf, OwnershipStatus.members])))
      (by simp [putAttr, OwnershipStatus.members, Tree.ints, Tree.objs, Tree.optInt, Tree.optObj, Tree.intOr, Tree.optFloat, Tree.noneOr, IntercomParametersValue.tree])
  exact .new a

theorem Ctor.OwnershipStatus.lawful : Ctor.OwnershipStatus.Lawful := by
  intro kv kt e ok
  refine .select [("entityId", .none), ("ownershipStatus", .int 0)] (by simp) e ?_
  exact .cast (OwnershipStatus.builds ((attrOf "entityId" kv).getD (.sc (.none)), (attrOf "entityId" kt).getD (.sc (.none))) ((attrOf "ownershipStatus" kv).getD (.sc (.int 0)), (attrOf "ownershipStatus" kt).getD (.sc (.int 0)))) (by
    simp [Ctor.built, Ctor.OwnershipStatus, HeapClass.OwnershipStatus, InPlace.value, InPlace.OwnershipStatus, Codec.OwnershipStatus, OwnershipStatus.init, Param.put, Tree.change, value_asIs, value_orFresh, value_copy, Tree.or_list, OwnershipStatus.members, Tree.ints, Tree.objs, Tree.optInt, Tree.optObj, Tree.intOr, Tree.optFloat, Tree.noneOr, IntercomParametersValue.tree])

theorem AttachedParts.builds (detachedIndicator partAttachedTo parameterType attachedPartType : Val × Tree) :
    Builds (AttachedParts.newHeap detachedIndicator.1 partAttachedTo.1 parameterType.1 attachedPartType.1) [detachedIndicator, partAttachedTo, parameterType, attachedPartType]
      (.obj [("recordType", .sc (.int 1)), ("detachedIndicator", detachedIndicator.2),
      ("partAttachedTo", partAttachedTo.2), ("parameterType", parameterType.2),
      ("attachedPartType", attachedPartType.2.or (.obj (EntityType.members EntityType.init))),
      ("parameterValue", .sc .absent)]) := by
  have a : Fills (fun self => AttachedParts.initHeap self detachedIndicator.1 partAttachedTo.1 parameterType.1 attachedPartType.1) [detachedIndicator, partAttachedTo, parameterType, attachedPartType]
      (([("recordType", .sc (.int 1)), ("detachedIndicator", .sc .absent), ("partAttachedTo", .sc .absent), ("parameterType", .sc .absent), ("attachedPartType", .sc .absent), ("parameterValue", .sc .absent)] : List (String × Tree)) ++ []) []
      [("recordType", .sc (.int 1)), ("detachedIndicator", detachedIndicator.2),
      ("partAttachedTo", partAttachedTo.2), ("parameterType", parameterType.2),
      ("attachedPartType", attachedPartType.2.or (.obj (EntityType.members EntityType.init))),
      ("parameterValue", .sc .absent)] := by
    unfold AttachedParts.initHeap
    refine .bind (.arg (p := detachedIndicator) (by simp [attrOf_putAttr_isSome, attrOf, AttachedParts.members])) ?_
    refine .bind (.arg (p := partAttachedTo) (by simp [attrOf_putAttr_isSome, attrOf, AttachedParts.members])) ?_
    refine .bind (.arg (p := parameterType) (by simp [attrOf_putAttr_isSome, attrOf, AttachedParts.members])) ?_
    exact .cast (.or (p := attachedPartType) EntityType.makesNew (by simp [attrOf_putAttr_isSome, attrOf, AttachedParts.members]))
      (by simp [putAttr, AttachedParts.members, Tree.ints, Tree.objs, Tree.optInt, Tree.optObj, Tree.intOr, Tree.optFloat, Tree.noneOr, IntercomParametersValue.tree])
  exact .new a

theorem Ctor.AttachedParts.lawful : Ctor.AttachedParts.Lawful := by
  intro kv kt e ok
  refine .select [("detachedIndicator", .int 0), ("partAttachedTo", .int 0), ("parameterType", .int 0), ("attachedPartType", .none)] (by simp) e ?_
  exact .cast (AttachedParts.builds ((attrOf "detachedIndicator" kv).getD (.sc (.int 0)), (attrOf "detachedIndicator" kt).getD (.sc (.int 0))) ((attrOf "partAttachedTo" kv).getD (.sc (.int 0)), (attrOf "partAttachedTo" kt).getD (.sc (.int 0))) ((attrOf "parameterType" kv).getD (.sc (.int 0)), (attrOf "parameterType" kt).getD (.sc (.int 0))) ((attrOf "attachedPartType" kv).getD (.sc (.none)), (attrOf "attachedPartType" kt).getD (.sc (.none)))) (by
    simp [Ctor.built, Ctor.AttachedParts, HeapClass.AttachedParts, InPlace.value, InPlace.AttachedParts, Codec.AttachedParts, AttachedParts.init, Param.put, Tree.change, value_asIs, value_orFresh, value_copy, Tree.or_list, AttachedParts.members, Tree.ints, Tree.objs, Tree.optInt, Tree.optObj, Tree.intOr, Tree.optFloat, Tree.noneOr, IntercomParametersValue.tree])

theorem Attribute.builds (recordType recordLength recordSpecificFields : Val × Tree) :
    Builds (Attribute.newHeap recordType.1 recordLength.1 recordSpecificFields.1) [recordType, recordLength, recordSpecificFields]
      (.obj [("recordType", recordType.2), ("recordLength", recordLength.2),
      ("recordSpecificFields", recordSpecificFields.2)]) := by
  have a : Fills (fun self => Attribute.initHeap self recordType.1 recordLength.1 recordSpecificFields.1) [recordType, recordLength, recordSpecificFields]
      (([("recordType", .sc .absent), ("recordLength", .sc .absent), ("recordSpecificFields", .sc .absent)] : List (String × Tree)) ++ []) []
      [("recordType", recordType.2), ("recordLength", recordLength.2),
      ("recordSpecificFields", recordSpecificFields.2)] := by
    unfold Attribute.initHeap
    refine .bind (.arg (p := recordType) (by simp [attrOf_putAttr_isSome, attrOf, Attribute.members])) ?_
    refine .bind (.arg (p := recordLength) (by simp [attrOf_putAttr_isSome, attrOf, Attribute.members])) ?_
    exact .cast (.arg (p := recordSpecificFields) (by simp [attrOf_putAttr_isSome, attrOf, Attribute.members]))
      (by simp [putAttr, Attribute.members, Tree.ints, Tree.objs, Tree.optInt, Tree.optObj, Tree.intOr, Tree.optFloat, Tree.noneOr, IntercomParametersValue.tree])
  exact .new a

theorem Ctor.Attribute.lawful : Ctor.Attribute.Lawful := by
  intro kv kt e ok
  refine .select [("recordType", .int 0), ("recordLength", .int 0), ("recordSpecificFields", .int 0)] (by simp) e ?_
  exact .cast (Attribute.builds ((attrOf "recordType" kv).getD (.sc (.int 0)), (attrOf "recordType" kt).getD (.sc (.int 0))) ((attrOf "recordLength" kv).getD (.sc (.int 0)), (attrOf "recordLength" kt).getD (.sc (.int 0))) ((attrOf "recordSpecificFields" kv).getD (.sc (.int 0)), (attrOf "recordSpecificFields" kt).getD (.sc (.int 0)))) (by
    simp [Ctor.built, Ctor.Attribute, HeapClass.Attribute, InPlace.value, InPlace.Attribute, Codec.Attribute, Attribute.init, Param.put, Tree.change, value_asIs, value_orFresh, value_copy, Tree.or_list, Attribute.members, Tree.ints, Tree.objs, Tree.optInt, Tree.optObj, Tree.intOr, Tree.optFloat, Tree.noneOr, IntercomParametersValue.tree])

theorem RecordQuerySpecification.builds (recordIDs : Val × Tree) :
    Builds (RecordQuerySpecification.newHeap recordIDs.1) [recordIDs]
      (.obj [("recordIDs", recordIDs.2.or (.list []))]) := by
  have a : Fills (fun self => RecordQuerySpecification.initHeap self recordIDs.1) [recordIDs]
      (([("recordIDs", .sc .absent)] : List (String × Tree)) ++ []) []
      [("recordIDs", recordIDs.2.or (.list []))] := by
    unfold RecordQuerySpecification.initHeap
    exact .cast (.or (p := recordIDs) .empty (by simp [attrOf_putAttr_isSome, attrOf, RecordQuerySpecification.members]))
      (by simp [putAttr, RecordQuerySpecification.members, Tree.ints, Tree.objs, Tree.optInt, Tree.optObj, Tree.intOr, Tree.optFloat, Tree.noneOr, IntercomParametersValue.tree])
  exact .new a

theorem Ctor.RecordQuerySpecification.lawful : Ctor.RecordQuerySpecification.Lawful := by
  intro kv kt e ok
  refine .select [("recordIDs", .none)] (by simp) e ?_
  exact .cast (RecordQuerySpecification.builds ((attrOf "recordIDs" kv).getD (.sc (.none)), (attrOf "recordIDs" kt).getD (.sc (.none)))) (by
    simp [Ctor.built, Ctor.RecordQuerySpecification, HeapClass.RecordQuerySpecification, InPlace.value, InPlace.RecordQuerySpecification, Codec.RecordQuerySpecification, RecordQuerySpecification.init, Param.put, Tree.change, value_asIs, value_orFresh, value_copy, Tree.or_list, RecordQuerySpecification.members, Tree.ints, Tree.objs, Tree.optInt, Tree.optObj, Tree.intOr, Tree.optFloat, Tree.noneOr, IntercomParametersValue.tree])

theorem ArticulatedParts.builds (changeIndicator partAttachedTo parameterType parameterValue : Val × Tree) :
    Builds (ArticulatedParts.newHeap changeIndicator.1 partAttachedTo.1 parameterType.1 parameterValue.1) [changeIndicator, partAttachedTo, parameterType, parameterValue]
      (.obj [("recordType", .sc (.int 0)), ("changeIndicator", changeIndicator.2),
      ("partAttachedTo", partAttachedTo.2), ("parameterType", parameterType.2),
      ("parameterValue", parameterValue.2)]) := by
  have a : Fills (fun self => ArticulatedParts.initHeap self changeIndicator.1 partAttachedTo.1 parameterType.1 parameterValue.1) [changeIndicator, partAttachedTo, parameterType, parameterValue]
      (([("recordType", .sc (.int 0)), ("changeIndicator", .sc .absent), ("partAttachedTo", .sc .absent), ("parameterType", .sc .absent), ("parameterValue", .sc .absent)] : List (String × Tree)) ++ []) []
      [("recordType", .sc (.int 0)), ("changeIndicator", changeIndicator.2),
      ("partAttachedTo", partAttachedTo.2), ("parameterType", parameterType.2),
      ("parameterValue", parameterValue.2)] := by
    unfold ArticulatedParts.initHeap
    refine .bind (.arg (p := changeIndicator) (by simp [attrOf_putAttr_isSome, attrOf, ArticulatedParts.members])) ?_
    refine .bind (.arg (p := partAttachedTo) (by simp [attrOf_putAttr_isSome, attrOf, ArticulatedParts.members])) ?_
    refine .bind (.arg (p := parameterType) (by simp [attrOf_putAttr_isSome, attrOf, ArticulatedParts.members])) ?_
    exact .cast (.arg (p := parameterValue) (by simp [attrOf_putAttr_isSome, attrOf, ArticulatedParts.members]))
      (by simp [putAttr, ArticulatedParts.members, Tree.ints, Tree.objs, Tree.optInt, Tree.optObj, Tree.intOr, Tree.optFloat, Tree.noneOr, IntercomParametersValue.tree])
  exact .new a

theorem Ctor.ArticulatedParts.lawful : Ctor.ArticulatedParts.Lawful := by
  intro kv kt e ok
  refine .select [("changeIndicator", .int 0), ("partAttachedTo", .int 0), ("parameterType", .int 0), ("parameterValue", .int 0)] (by simp) e ?_
  exact .cast (ArticulatedParts.builds ((attrOf "changeIndicator" kv).getD (.sc (.int 0)), (attrOf "changeIndicator" kt).getD (.sc (.int 0))) ((attrOf "partAttachedTo" kv).getD (.sc (.int 0)), (attrOf "partAttachedTo" kt).getD (.sc (.int 0))) ((attrOf "parameterType" kv).getD (.sc (.int 0)), (attrOf "parameterType" kt).getD (.sc (.int 0))) ((attrOf "parameterValue" kv).getD (.sc (.int 0)), (attrOf "parameterValue" kt).getD (.sc (.int 0)))) (by
    simp [Ctor.built, Ctor.ArticulatedParts, HeapClass.ArticulatedParts, InPlace.value, InPlace.ArticulatedParts, Codec.ArticulatedParts, ArticulatedParts.init, Param.put, Tree.change, value_asIs, value_orFresh, value_copy, Tree.or_list, ArticulatedParts.members, Tree.ints, Tree.objs, Tree.optInt, Tree.optObj, Tree.intOr, Tree.optFloat, Tree.noneOr, IntercomParametersValue.tree])

theorem ObjectType.builds (domain objectKind category subcategory : Val × Tree) :
    Builds (ObjectType.newHeap domain.1 objectKind.1 category.1 subcategory.1) [domain, objectKind, category, subcategory]
      (.obj [("domain", domain.2), ("objectKind", objectKind.2), ("category", category.2),
      ("subcategory", subcategory.2)]) := by
  have a : Fills (fun self => ObjectType.initHeap self domain.1 objectKind.1 category.1 subcategory.1) [domain, objectKind, category, subcategory]
      (([("domain", .sc .absent), ("objectKind", .sc .absent), ("category", .sc .absent), ("subcategory", .sc .absent)] : List (String × Tree)) ++ []) []
      [("domain", domain.2), ("objectKind", objectKind.2), ("category", category.2),
      ("subcategory", subcategory.2)] := by
    unfold ObjectType.initHeap
    refine .bind (.arg (p := domain) (by simp [attrOf_putAttr_isSome, attrOf, ObjectType.members])) ?_
    refine .bind (.arg (p := objectKind) (by simp [attrOf_putAttr_isSome, attrOf, ObjectType.members])) ?_
    refine .bind (.arg (p := category) (by simp [attrOf_putAttr_isSome, attrOf, ObjectType.members])) ?_
    exact .cast (.arg (p := subcategory) (by simp [attrOf_putAttr_isSome, attrOf, ObjectType.members]))
      (by simp [putAttr, ObjectType.members, Tree.ints, Tree.objs, Tree.optInt, Tree.optObj, Tree.intOr, Tree.optFloat, Tree.noneOr, IntercomParametersValue.tree])
  exact .new a

theorem Ctor.ObjectType.lawful : Ctor.ObjectType.Lawful := by
  intro kv kt e ok
  refine .select [("domain", .int 0), ("objectKind", .int 0), ("category", .int 0), ("subcategory", .int 0)] (by simp) e ?_
  exact .cast (ObjectType.builds ((attrOf "domain" kv).getD (.sc (.int 0)), (attrOf "domain" kt).getD (.sc (.int 0))) ((attrOf "objectKind" kv).getD (.sc (.int 0)), (attrOf "objectKind" kt).getD (.sc (.int 0))) ((attrOf "category" kv).getD (.sc (.int 0)), (attrOf "category" kt).getD (.sc (.int 0))) ((attrOf "subcategory" kv).getD (.sc (.int 0)), (attrOf "subcategory" kt).getD (.sc (.int 0)))) (by
    simp [Ctor.built, Ctor.ObjectType, HeapClass.ObjectType, InPlace.value, InPlace.ObjectType, Codec.ObjectType, ObjectType.init, Param.put, Tree.change, value_asIs, value_orFresh, value_copy, Tree.or_list, ObjectType.members, Tree.ints, Tree.objs, Tree.optInt, Tree.optObj, Tree.intOr, Tree.optFloat, Tree.noneOr, IntercomParametersValue.tree])

theorem Association.builds (associationType associatedEntityID associatedLocation : Val × Tree) :
    Builds (Association.newHeap associationType.1 associatedEntityID.1 associatedLocation.1) [associationType, associatedEntityID, associatedLocation]
      (.obj [("associationType", associationType.2), ("padding4", .sc (.int 0)),
      ("associatedEntityID", associatedEntityID.2.or (.obj (EntityIdentifier.members EntityIdentifier.init))),
      ("associatedLocation", associatedLocation.2.or (.obj (WorldCoordinates.members WorldCoordinates.init)))]) := by
  have a : Fills (fun self => Association.initHeap self associationType.1 associatedEntityID.1 associatedLocation.1) [associationType, associatedEntityID, associatedLocation]
      (([("associationType", .sc .absent), ("padding4", .sc .absent), ("associatedEntityID", .sc .absent), ("associatedLocation", .sc .absent)] : List (String × Tree)) ++ []) []
      [("associationType", associationType.2), ("padding4", .sc (.int 0)),
      ("associatedEntityID", associatedEntityID.2.or (.obj (EntityIdentifier.members EntityIdentifier.init))),
      ("associatedLocation", associatedLocation.2.or (.obj (WorldCoordinates.members WorldCoordinates.init)))] := by
    unfold Association.initHeap
    refine .bind (.arg (p := associationType) (by simp [attrOf_putAttr_isSome, attrOf, Association.members])) ?_
    refine .bind (.inits (.set' (by simp [attrOf_putAttr_isSome, attrOf, Association.members]))) ?_
    refine .bind (.or (p := associatedEntityID) EntityIdentifier.makesNew (by simp [attrOf_putAttr_isSome, attrOf, Association.members])) ?_
    exact .cast (.or (p := associatedLocation) WorldCoordinates.makesNew (by simp [attrOf_putAttr_isSome, attrOf, Association.members]))
      (by simp [putAttr, Association.members, Tree.ints, Tree.objs, Tree.optInt, Tree.optObj, Tree.intOr, Tree.optFloat, Tree.noneOr, IntercomParametersValue.tree])
  exact .new a

theorem Ctor.Association.lawful : Ctor.Association.Lawful := by
  intro kv kt e ok
  refine .select [("associationType", .int 0), ("associatedEntityID", .none), ("associatedLocation", .none)] (by simp) e ?_
  exact .cast (Association.builds ((attrOf "associationType" kv).getD (.sc (.int 0)), (attrOf "associationType" kt).getD (.sc (.int 0))) ((attrOf "associatedEntityID" kv).getD (.sc (.none)), (attrOf "associatedEntityID" kt).getD (.sc (.none))) ((attrOf "associatedLocation" kv).getD (.sc (.none)), (attrOf "associatedLocation" kt).getD (.sc (.none)))) (by
    simp [Ctor.built, Ctor.Association, HeapClass.Association, InPlace.value, InPlace.Association, Codec.Association, Association.init, Param.put, Tree.change, value_asIs, value_orFresh, value_copy, Tree.or_list, Association.members, Tree.ints, Tree.objs, Tree.optInt, Tree.optObj, Tree.intOr, Tree.optFloat, Tree.noneOr, IntercomParametersValue.tree])

theorem RecordSpecificationElement.builds (recordID recordSetSerialNumber recordLength recordCount recordValues : Val × Tree) :
    Builds (RecordSpecificationElement.newHeap recordID.1 recordSetSerialNumber.1 recordLength.1 recordCount.1 recordValues.1) [recordID, recordSetSerialNumber, recordLength, recordCount, recordValues]
      (.obj [("recordID", recordID.2), ("recordSetSerialNumber", recordSetSerialNumber.2),
      ("recordLength", recordLength.2), ("recordCount", recordCount.2), ("recordValues", recordValues.2),
      ("pad4", .sc (.int 0))]) := by
  have a : Fills (fun self => RecordSpecificationElement.initHeap self recordID.1 recordSetSerialNumber.1 recordLength.1 recordCount.1 recordValues.1) [recordID, recordSetSerialNumber, recordLength, recordCount, recordValues]
      (([("recordID", .sc .absent), ("recordSetSerialNumber", .sc .absent), ("recordLength", .sc .absent), ("recordCount", .sc .absent), ("recordValues", .sc .absent), ("pad4", .sc .absent)] : List (String × Tree)) ++ []) []
      [("recordID", recordID.2), ("recordSetSerialNumber", recordSetSerialNumber.2),
      ("recordLength", recordLength.2), ("recordCount", recordCount.2), ("recordValues", recordValues.2),
      ("pad4", .sc (.int 0))] := by
    unfold RecordSpecificationElement.initHeap
    refine .bind (.arg (p := recordID) (by simp [attrOf_putAttr_isSome, attrOf, RecordSpecificationElement.members])) ?_
    refine .bind (.arg (p := recordSetSerialNumber) (by simp [attrOf_putAttr_isSome, attrOf, RecordSpecificationElement.members])) ?_
    refine .bind (.arg (p := recordLength) (by simp [attrOf_putAttr_isSome, attrOf, RecordSpecificationElement.members])) ?_
    refine .bind (.arg (p := recordCount) (by simp [attrOf_putAttr_isSome, attrOf, RecordSpecificationElement.members])) ?_
    refine .bind (.arg (p := recordValues) (by simp [attrOf_putAttr_isSome, attrOf, RecordSpecificationElement.members])) ?_
    exact .cast (.inits (.set' (by simp [attrOf_putAttr_isSome, attrOf, RecordSpecificationElement.members])))
      (by simp [putAttr, RecordSpecificationElement.members, Tree.ints, Tree.objs, Tree.optInt, Tree.optObj, Tree.intOr, Tree.optFloat, Tree.noneOr, IntercomParametersValue.tree])
  exact .new a

theorem Ctor.RecordSpecificationElement.lawful : Ctor.RecordSpecificationElement.Lawful := by
  intro kv kt e ok
  refine .select [("recordID", .int 0), ("recordSetSerialNumber", .int 0), ("recordLength", .int 0), ("recordCount", .int 0), ("recordValues", .int 0)] (by simp) e ?_
  exact .cast (RecordSpecificationElement.builds ((attrOf "recordID" kv).getD (.sc (.int 0)), (attrOf "recordID" kt).getD (.sc (.int 0))) ((attrOf "recordSetSerialNumber" kv).getD (.sc (.int 0)), (attrOf "recordSetSerialNumber" kt).getD (.sc (.int 0))) ((attrOf "recordLength" kv).getD (.sc (.int 0)), (attrOf "recordLength" kt).getD (.sc (.int 0))) ((attrOf "recordCount" kv).getD (.sc (.int 0)), (attrOf "recordCount" kt).getD (.sc (.int 0))) ((attrOf "recordValues" kv).getD (.sc (.int 0)), (attrOf "recordValues" kt).getD (.sc (.int 0)))) (by
    simp [Ctor.built, Ctor.RecordSpecificationElement, HeapClass.RecordSpecificationElement, InPlace.value, InPlace.RecordSpecificationElement, Codec.RecordSpecificationElement, RecordSpecificationElement.init, Param.put, Tree.change, value_asIs, value_orFresh, value_copy, Tree.or_list, RecordSpecificationElement.members, Tree.ints, Tree.objs, Tree.optInt, Tree.optObj, Tree.intOr, Tree.optFloat, Tree.noneOr, IntercomParametersValue.tree])

theorem AntennaLocation.builds (antennaLocation relativeAntennaLocation : Val × Tree) :
    Builds (AntennaLocation.newHeap antennaLocation.1 relativeAntennaLocation.1) [antennaLocation, relativeAntennaLocation]
      (.obj [("antennaLocation", antennaLocation.2.or (.obj (WorldCoordinates.members WorldCoordinates.init))),
      ("relativeAntennaLocation", relativeAntennaLocation.2.or (.obj (Vector3Float.members Vector3Float.init)))]) := by
  have a : Fills (fun self => AntennaLocation.initHeap self antennaLocation.1 relativeAntennaLocation.1) [antennaLocation, relativeAntennaLocation]
      (([("antennaLocation", .sc .absent), ("relativeAntennaLocation", .sc .absent)] : List (String × Tree)) ++ []) []
      [("antennaLocation", antennaLocation.2.or (.obj (WorldCoordinates.members WorldCoordinates.init))),
      ("relativeAntennaLocation", relativeAntennaLocation.2.or (.obj (Vector3Float.members Vector3Float.init)))] := by
    unfold AntennaLocation.initHeap
    refine .bind (.or (p := antennaLocation) WorldCoordinates.makesNew (by simp [attrOf_putAttr_isSome, attrOf, AntennaLocation.members])) ?_
    exact .cast (.or (p := relativeAntennaLocation) Vector3Float.makesNew (by simp [attrOf_putAttr_isSome, attrOf, AntennaLocation.members]))
      (by simp [putAttr, AntennaLocation.members, Tree.ints, Tree.objs, Tree.optInt, Tree.optObj, Tree.intOr, Tree.optFloat, Tree.noneOr, IntercomParametersValue.tree])
  exact .new a

theorem Ctor.AntennaLocation.lawful : Ctor.AntennaLocation.Lawful := by
  intro kv kt e ok
  refine .select [("antennaLocation", .none), ("relativeAntennaLocation", .none)] (by simp) e ?_
  exact .cast (AntennaLocation.builds ((attrOf "antennaLocation" kv).getD (.sc (.none)), (attrOf "antennaLocation" kt).getD (.sc (.none))) ((attrOf "relativeAntennaLocation" kv).getD (.sc (.none)), (attrOf "relativeAntennaLocation" kt).getD (.sc (.none)))) (by
    simp [Ctor.built, Ctor.AntennaLocation, HeapClass.AntennaLocation, InPlace.value, InPlace.AntennaLocation, Codec.AntennaLocation, AntennaLocation.init, Param.put, Tree.change, value_asIs, value_orFresh, value_copy, Tree.or_list, AntennaLocation.members, Tree.ints, Tree.objs, Tree.optInt, Tree.optObj, Tree.intOr, Tree.optFloat, Tree.noneOr, IntercomParametersValue.tree])

theorem ObjectIdentifier.builds (simulationAddress objectNumber : Val × Tree) :
    Builds (ObjectIdentifier.newHeap simulationAddress.1 objectNumber.1) [simulationAddress, objectNumber]
      (.obj [("simulationAddress", simulationAddress.2.or (.obj (SimulationAddress.members SimulationAddress.init))),
      ("objectNumber", objectNumber.2)]) := by
  have a : Fills (fun self => ObjectIdentifier.initHeap self simulationAddress.1 objectNumber.1) [simulationAddress, objectNumber]
      (([("simulationAddress", .sc .absent), ("objectNumber", .sc .absent)] : List (String × Tree)) ++ []) []
      [("simulationAddress", simulationAddress.2.or (.obj (SimulationAddress.members SimulationAddress.init))),
      ("objectNumber", objectNumber.2)] := by
    unfold ObjectIdentifier.initHeap
    refine .bind (.or (p := simulationAddress) SimulationAddress.makesNew (by simp [attrOf_putAttr_isSome, attrOf, ObjectIdentifier.members])) ?_
    exact .cast (.arg (p := objectNumber) (by simp [attrOf_putAttr_isSome, attrOf, ObjectIdentifier.members]))
      (by simp [putAttr, ObjectIdentifier.members, Tree.ints, Tree.objs, Tree.optInt, Tree.optObj, Tree.intOr, Tree.optFloat, Tree.noneOr, IntercomParametersValue.tree])
  exact .new a

theorem Ctor.ObjectIdentifier.lawful : Ctor.ObjectIdentifier.Lawful := by
  intro kv kt e ok
  refine .select [("simulationAddress", .none), ("objectNumber", .int 0)] (by simp) e ?_
  exact .cast (ObjectIdentifier.builds ((attrOf "simulationAddress" kv).getD (.sc (.none)), (attrOf "simulationAddress" kt).getD (.sc (.none))) ((attrOf "objectNumber" kv).getD (.sc (.int 0)), (attrOf "objectNumber" kt).getD (.sc (.int 0)))) (by
    simp [Ctor.built, Ctor.ObjectIdentifier, HeapClass.ObjectIdentifier, InPlace.value, InPlace.ObjectIdentifier, Codec.ObjectIdentifier, ObjectIdentifier.init, Param.put, Tree.change, value_asIs, value_orFresh, value_copy, Tree.or_list, ObjectIdentifier.members, Tree.ints, Tree.objs, Tree.optInt, Tree.optObj, Tree.intOr, Tree.optFloat, Tree.noneOr, IntercomParametersValue.tree])

theorem AggregateIdentifier.builds (simulationAddress aggregateID : Val × Tree) :
    Builds (AggregateIdentifier.newHeap simulationAddress.1 aggregateID.1) [simulationAddress, aggregateID]
      (.obj [("simulationAddress", simulationAddress.2.or (.obj (SimulationAddress.members SimulationAddress.init))),
      ("aggregateID", aggregateID.2)]) := by
  have a : Fills (fun self => AggregateIdentifier.initHeap self simulationAddress.1 aggregateID.1) [simulationAddress, aggregateID]
      (([("simulationAddress", .sc .absent), ("aggregateID", .sc .absent)] : List (String × Tree)) ++ []) []
      [("simulationAddress", simulationAddress.2.or (.obj (SimulationAddress.members SimulationAddress.init))),
      ("aggregateID", aggregateID.2)] := by
    unfold AggregateIdentifier.initHeap
    refine .bind (.or (p := simulationAddress) SimulationAddress.makesNew (by simp [attrOf_putAttr_isSome, attrOf, AggregateIdentifier.members])) ?_
    exact .cast (.arg (p := aggregateID) (by simp [attrOf_putAttr_isSome, attrOf, AggregateIdentifier.members]))
      (by simp [putAttr, AggregateIdentifier.members, Tree.ints, Tree.objs, Tree.optInt, Tree.optObj, Tree.intOr, Tree.optFloat, Tree.noneOr, IntercomParametersValue.tree])
  exact .new a

theorem Ctor.AggregateIdentifier.lawful : Ctor.AggregateIdentifier.Lawful := by
  intro kv kt e ok
  refine .select [("simulationAddress", .none), ("aggregateID", .int 0)] (by simp) e ?_
  exact .cast (AggregateIdentifier.builds ((attrOf "simulationAddress" kv).getD (.sc (.none)), (attrOf "simulationAddress" kt).getD (.sc (.none))) ((attrOf "aggregateID" kv).getD (.sc (.int 0)), (attrOf "aggregateID" kt).getD (.sc (.int 0)))) (by
    simp [Ctor.built, Ctor.AggregateIdentifier, HeapClass.AggregateIdentifier, InPlace.value, InPlace.AggregateIdentifier, Codec.AggregateIdentifier, AggregateIdentifier.init, Param.put, Tree.change, value_asIs, value_orFresh, value_copy, Tree.or_list, AggregateIdentifier.members, Tree.ints, Tree.objs, Tree.optInt, Tree.optObj, Tree.intOr, Tree.optFloat, Tree.noneOr, IntercomParametersValue.tree])

theorem FixedDatum.builds (fixedDatumID fixedDatumValue : Val × Tree) :
    Builds (FixedDatum.newHeap fixedDatumID.1 fixedDatumValue.1) [fixedDatumID, fixedDatumValue]
      (.obj [("fixedDatumID", fixedDatumID.2), ("fixedDatumValue", fixedDatumValue.2)]) := by
  have a : Fills (fun self => FixedDatum.initHeap self fixedDatumID.1 fixedDatumValue.1) [fixedDatumID, fixedDatumValue]
      (([("fixedDatumID", .sc .absent), ("fixedDatumValue", .sc .absent)] : List (String × Tree)) ++ []) []
      [("fixedDatumID", fixedDatumID.2), ("fixedDatumValue", fixedDatumValue.2)] := by
    unfold FixedDatum.initHeap
    refine .bind (.arg (p := fixedDatumID) (by simp [attrOf_putAttr_isSome, attrOf, FixedDatum.members])) ?_
    exact .cast (.arg (p := fixedDatumValue) (by simp [attrOf_putAttr_isSome, attrOf, FixedDatum.members]))
      (by simp [putAttr, FixedDatum.members, Tree.ints, Tree.objs, Tree.optInt, Tree.optObj, Tree.intOr, Tree.optFloat, Tree.noneOr, IntercomParametersValue.tree])
  exact .new a

theorem Ctor.FixedDatum.lawful : Ctor.FixedDatum.Lawful := by
  intro kv kt e ok
  refine .select [("fixedDatumID", .int 0), ("fixedDatumValue", .int 0)] (by simp) e ?_
  exact .cast (FixedDatum.builds ((attrOf "fixedDatumID" kv).getD (.sc (.int 0)), (attrOf "fixedDatumID" kt).getD (.sc (.int 0))) ((attrOf "fixedDatumValue" kv).getD (.sc (.int 0)), (attrOf "fixedDatumValue" kt).getD (.sc (.int 0)))) (by
    simp [Ctor.built, Ctor.FixedDatum, HeapClass.FixedDatum, InPlace.value, InPlace.FixedDatum, Codec.FixedDatum, FixedDatum.init, Param.put, Tree.change, value_asIs, value_orFresh, value_copy, Tree.or_list, FixedDatum.members, Tree.ints, Tree.objs, Tree.optInt, Tree.optObj, Tree.intOr, Tree.optFloat, Tree.noneOr, IntercomParametersValue.tree])

theorem VariableParameter.builds (recordType variableParameterFields1 variableParameterFields2 variableParameterFields3 variableParameterFields4 : Val × Tree) :
    Builds (VariableParameter.newHeap recordType.1 variableParameterFields1.1 variableParameterFields2.1 variableParameterFields3.1 variableParameterFields4.1) [recordType, variableParameterFields1, variableParameterFields2, variableParameterFields3, variableParameterFields4]
      (.obj [("recordType", recordType.2), ("variableParameterFields1", variableParameterFields1.2),
      ("variableParameterFields2", variableParameterFields2.2),
      ("variableParameterFields3", variableParameterFields3.2),
      ("variableParameterFields4", variableParameterFields4.2)]) := by
  have a : Fills (fun self => VariableParameter.initHeap self recordType.1 variableParameterFields1.1 variableParameterFields2.1 variableParameterFields3.1 variableParameterFields4.1) [recordType, variableParameterFields1, variableParameterFields2, variableParameterFields3, variableParameterFields4]
      (([("recordType", .sc .absent), ("variableParameterFields1", .sc .absent), ("variableParameterFields2", .sc .absent), ("variableParameterFields3", .sc .absent), ("variableParameterFields4", .sc .absent)] : List (String × Tree)) ++ []) []
      [("recordType", recordType.2), ("variableParameterFields1", variableParameterFields1.2),
      ("variableParameterFields2", variableParameterFields2.2),
      ("variableParameterFields3", variableParameterFields3.2),
      ("variableParameterFields4", variableParameterFields4.2)] := by
    unfold VariableParameter.initHeap
    refine .bind (.arg (p := recordType) (by simp [attrOf_putAttr_isSome, attrOf, VariableParameter.members])) ?_
    refine .bind (.arg (p := variableParameterFields1) (by simp [attrOf_putAttr_isSome, attrOf, VariableParameter.members])) ?_
    refine .bind (.arg (p := variableParameterFields2) (by simp [attrOf_putAttr_isSome, attrOf, VariableParameter.members])) ?_
    refine .bind (.arg (p := variableParameterFields3) (by simp [attrOf_putAttr_isSome, attrOf, VariableParameter.members])) ?_
    exact .cast (.arg (p := variableParameterFields4) (by simp [attrOf_putAttr_isSome, attrOf, VariableParameter.members]))
      (by simp [putAttr, VariableParameter.members, Tree.ints, Tree.objs, Tree.optInt, Tree.optObj, Tree.intOr, Tree.optFloat, Tree.noneOr, IntercomParametersValue.tree])
  exact .new a

theorem Ctor.VariableParameter.lawful : Ctor.VariableParameter.Lawful := by
  intro kv kt e ok
  refine .select [("recordType", .int 0), ("variableParameterFields1", .float 0x0000000000000000), ("variableParameterFields2", .int 0), ("variableParameterFields3", .int 0), ("variableParameterFields4", .int 0)] (by simp) e ?_
  exact .cast (VariableParameter.builds ((attrOf "recordType" kv).getD (.sc (.int 0)), (attrOf "recordType" kt).getD (.sc (.int 0))) ((attrOf "variableParameterFields1" kv).getD (.sc (.float 0x0000000000000000)), (attrOf "variableParameterFields1" kt).getD (.sc (.float 0x0000000000000000))) ((attrOf "variableParameterFields2" kv).getD (.sc (.int 0)), (attrOf "variableParameterFields2" kt).getD (.sc (.int 0))) ((attrOf "variableParameterFields3" kv).getD (.sc (.int 0)), (attrOf "variableParameterFields3" kt).getD (.sc (.int 0))) ((attrOf "variableParameterFields4" kv).getD (.sc (.int 0)), (attrOf "variableParameterFields4" kt).getD (.sc (.int 0)))) (by
    simp [Ctor.built, Ctor.VariableParameter, HeapClass.VariableParameter, InPlace.value, InPlace.VariableParameter, Codec.VariableParameter, VariableParameter.init, Param.put, Tree.change, value_asIs, value_orFresh, value_copy, Tree.or_list, VariableParameter.members, Tree.ints, Tree.objs, Tree.optInt, Tree.optObj, Tree.intOr, Tree.optFloat, Tree.noneOr, IntercomParametersValue.tree])

theorem ChangeOptions.builds :
    Builds (ChangeOptions.newHeap) []
      (.obj []) := by
  have a : Fills (fun self => ChangeOptions.initHeap self) []
      ([] ++ []) []
      [] := by
    unfold ChangeOptions.initHeap
    exact .cast (.inits .done) (by simp [ChangeOptions.members])
  exact .new a

theorem Ctor.ChangeOptions.lawful : Ctor.ChangeOptions.Lawful := by
  intro kv kt e ok
  refine .select [] (by simp) e ?_
  exact .cast (ChangeOptions.builds ) (by
    simp [Ctor.built, Ctor.ChangeOptions, HeapClass.ChangeOptions, InPlace.value, InPlace.ChangeOptions, Codec.ChangeOptions, ChangeOptions.init, Param.put, Tree.change, value_asIs, value_orFresh, value_copy, Tree.or_list, ChangeOptions.members, Tree.ints, Tree.objs, Tree.optInt, Tree.optObj, Tree.intOr, Tree.optFloat, Tree.noneOr, IntercomParametersValue.tree])

theorem LiveSimulationAddress.builds (liveSiteNumber liveApplicationNumber : Val × Tree) :
    Builds (LiveSimulationAddress.newHeap liveSiteNumber.1 liveApplicationNumber.1) [liveSiteNumber, liveApplicationNumber]
      (.obj [("liveSiteNumber", liveSiteNumber.2), ("liveApplicationNumber", liveApplicationNumber.2)]) := by
  have a : Fills (fun self => LiveSimulationAddress.initHeap self liveSiteNumber.1 liveApplicationNumber.1) [liveSiteNumber, liveApplicationNumber]
      (([("liveSiteNumber", .sc .absent), ("liveApplicationNumber", .sc .absent)] : List (String × Tree)) ++ []) []
      [("liveSiteNumber", liveSiteNumber.2), ("liveApplicationNumber", liveApplicationNumber.2)] := by
    unfold LiveSimulationAddress.initHeap
    refine .bind (.arg (p := liveSiteNumber) (by simp [attrOf_putAttr_isSome, attrOf, LiveSimulationAddress.members])) ?_
    exact .cast (.arg (p := liveApplicationNumber) (by simp [attrOf_putAttr_isSome, attrOf, LiveSimulationAddress.members]))
      (by simp [putAttr, LiveSimulationAddress.members, Tree.ints, Tree.objs, Tree.optInt, Tree.optObj, Tree.intOr, Tree.optFloat, Tree.noneOr, IntercomParametersValue.tree])
  exact .new a

theorem Ctor.LiveSimulationAddress.lawful : Ctor.LiveSimulationAddress.Lawful := by
  intro kv kt e ok
  refine .select [("liveSiteNumber", .int 0), ("liveApplicationNumber", .int 0)] (by simp) e ?_
  exact .cast (LiveSimulationAddress.builds ((attrOf "liveSiteNumber" kv).getD (.sc (.int 0)), (attrOf "liveSiteNumber" kt).getD (.sc (.int 0))) ((attrOf "liveApplicationNumber" kv).getD (.sc (.int 0)), (attrOf "liveApplicationNumber" kt).getD (.sc (.int 0)))) (by
    simp [Ctor.built, Ctor.LiveSimulationAddress, HeapClass.LiveSimulationAddress, InPlace.value, InPlace.LiveSimulationAddress, Codec.LiveSimulationAddress, LiveSimulationAddress.init, Param.put, Tree.change, value_asIs, value_orFresh, value_copy, Tree.or_list, LiveSimulationAddress.members, Tree.ints, Tree.objs, Tree.optInt, Tree.optObj, Tree.intOr, Tree.optFloat, Tree.noneOr, IntercomParametersValue.tree])

theorem EntityMarking.builds (characterSet characters : Val × Tree) :
    Builds (EntityMarking.newHeap characterSet.1 characters.1) [characterSet, characters]
      (.obj [("characterSet", characterSet.2),
      ("characters", characters.2.or (.list ((List.replicate 11 (0 : Int)).map fun v => .sc (.int v))))]) := by
  have a : Fills (fun self => EntityMarking.initHeap self characterSet.1 characters.1) [characterSet, characters]
      (([("characterSet", .sc .absent), ("characters", .sc .absent)] : List (String × Tree)) ++ []) []
      [("characterSet", characterSet.2),
      ("characters", characters.2.or (.list ((List.replicate 11 (0 : Int)).map fun v => .sc (.int v))))] := by
    unfold EntityMarking.initHeap
    refine .bind (.arg (p := characterSet) (by simp [attrOf_putAttr_isSome, attrOf, EntityMarking.members])) ?_
    exact .cast (.or (p := characters) (.zeros 11) (by simp [attrOf_putAttr_isSome, attrOf, EntityMarking.members]))
      (by simp [putAttr, EntityMarking.members, Tree.ints, Tree.objs, Tree.optInt, Tree.optObj, Tree.intOr, Tree.optFloat, Tree.noneOr, IntercomParametersValue.tree])
  exact .new a

theorem Ctor.EntityMarking.lawful : Ctor.EntityMarking.Lawful := by
  intro kv kt e ok
  refine .select [("characterSet", .int 0), ("characters", .none)] (by simp) e ?_
  exact .cast (EntityMarking.builds ((attrOf "characterSet" kv).getD (.sc (.int 0)), (attrOf "characterSet" kt).getD (.sc (.int 0))) ((attrOf "characters" kv).getD (.sc (.none)), (attrOf "characters" kt).getD (.sc (.none)))) (by
    simp [Ctor.built, Ctor.EntityMarking, HeapClass.EntityMarking, InPlace.value, InPlace.EntityMarking, Codec.EntityMarking, EntityMarking.init, Param.put, Tree.change, value_asIs, value_orFresh, value_copy, Tree.or_list, EntityMarking.members, Tree.ints, Tree.objs, Tree.optInt, Tree.optObj, Tree.intOr, Tree.optFloat, Tree.noneOr, IntercomParametersValue.tree])

theorem UAFundamentalParameter.builds (activeEmissionParameterIndex scanPattern beamCenterAzimuthHorizontal azimuthBeamwidthHorizontal beamCenterDepressionElevation beamwidthDownElevation : Val × Tree) :
    Builds (UAFundamentalParameter.newHeap activeEmissionParameterIndex.1 scanPattern.1 beamCenterAzimuthHorizontal.1 azimuthBeamwidthHorizontal.1 beamCenterDepressionElevation.1 beamwidthDownElevation.1) [activeEmissionParameterIndex, scanPattern, beamCenterAzimuthHorizontal, azimuthBeamwidthHorizontal, beamCenterDepressionElevation, beamwidthDownElevation]
      (.obj [("activeEmissionParameterIndex", activeEmissionParameterIndex.2), ("scanPattern", scanPattern.2),
      ("beamCenterAzimuthHorizontal", beamCenterAzimuthHorizontal.2),
      ("azimuthalBeamwidthHorizontal", azimuthBeamwidthHorizontal.2),
      ("beamCenterDepressionElevation", beamCenterDepressionElevation.2),
      ("beamwidthDownElevation", beamwidthDownElevation.2)]) := by
  have a : Fills (fun self => UAFundamentalParameter.initHeap self activeEmissionParameterIndex.1 scanPattern.1 beamCenterAzimuthHorizontal.1 azimuthBeamwidthHorizontal.1 beamCenterDepressionElevation.1 beamwidthDownElevation.1) [activeEmissionParameterIndex, scanPattern, beamCenterAzimuthHorizontal, azimuthBeamwidthHorizontal, beamCenterDepressionElevation, beamwidthDownElevation]
      (([("activeEmissionParameterIndex", .sc .absent), ("scanPattern", .sc .absent), ("beamCenterAzimuthHorizontal", .sc .absent), ("azimuthalBeamwidthHorizontal", .sc .absent), ("beamCenterDepressionElevation", .sc .absent), ("beamwidthDownElevation", .sc .absent)] : List (String × Tree)) ++ []) []
      [("activeEmissionParameterIndex", activeEmissionParameterIndex.2), ("scanPattern", scanPattern.2),
      ("beamCenterAzimuthHorizontal", beamCenterAzimuthHorizontal.2),
      ("azimuthalBeamwidthHorizontal", azimuthBeamwidthHorizontal.2),
      ("beamCenterDepressionElevation", beamCenterDepressionElevation.2),
      ("beamwidthDownElevation", beamwidthDownElevation.2)] := by
    unfold UAFundamentalParameter.initHeap
    refine .bind (.arg (p := activeEmissionParameterIndex) (by simp [attrOf_putAttr_isSome, attrOf, UAFundamentalParameter.members])) ?_
    refine .bind (.arg (p := scanPattern) (by simp [attrOf_putAttr_isSome, attrOf, UAFundamentalParameter.members])) ?_
    refine .bind (.arg (p := beamCenterAzimuthHorizontal) (by simp [attrOf_putAttr_isSome, attrOf, UAFundamentalParameter.members])) ?_
    refine .bind (.arg (p := azimuthBeamwidthHorizontal) (by simp [attrOf_putAttr_isSome, attrOf, UAFundamentalParameter.members])) ?_
    refine .bind (.arg (p := beamCenterDepressionElevation) (by simp [attrOf_putAttr_isSome, attrOf, UAFundamentalParameter.members])) ?_
    exact .cast (.arg (p := beamwidthDownElevation) (by simp [attrOf_putAttr_isSome, attrOf, UAFundamentalParameter.members]))
      (by simp [putAttr, UAFundamentalParameter.members, Tree.ints, Tree.objs, Tree.optInt, Tree.optObj, Tree.intOr, Tree.optFloat, Tree.noneOr, IntercomParametersValue.tree])
  exact .new a

theorem Ctor.UAFundamentalParameter.lawful : Ctor.UAFundamentalParameter.Lawful := by
  intro kv kt e ok
  refine .select [("activeEmissionParameterIndex", .int 0), ("scanPattern", .int 0), ("beamCenterAzimuthHorizontal", .float 0x0000000000000000), ("azimuthBeamwidthHorizontal", .float 0x0000000000000000), ("beamCenterDepressionElevation", .float 0x0000000000000000), ("beamwidthDownElevation", .float 0x0000000000000000)] (by simp) e ?_
  exact .cast (UAFundamentalParameter.builds ((attrOf "activeEmissionParameterIndex" kv).getD (.sc (.int 0)), (attrOf "activeEmissionParameterIndex" kt).getD (.sc (.int 0))) ((attrOf "scanPattern" kv).getD (.sc (.int 0)), (attrOf "scanPattern" kt).getD (.sc (.int 0))) ((attrOf "beamCenterAzimuthHorizontal" kv).getD (.sc (.float 0x0000000000000000)), (attrOf "beamCenterAzimuthHorizontal" kt).getD (.sc (.float 0x0000000000000000))) ((attrOf "azimuthBeamwidthHorizontal" kv).getD (.sc (.float 0x0000000000000000)), (attrOf "azimuthBeamwidthHorizontal" kt).getD (.sc (.float 0x0000000000000000))) ((attrOf "beamCenterDepressionElevation" kv).getD (.sc (.float 0x0000000000000000)), (attrOf "beamCenterDepressionElevation" kt).getD (.sc (.float 0x0000000000000000))) ((attrOf "beamwidthDownElevation" kv).getD (.sc (.float 0x0000000000000000)), (attrOf "beamwidthDownElevation" kt).getD (.sc (.float 0x0000000000000000)))) (by
    simp [Ctor.built, Ctor.UAFundamentalParameter, HeapClass.UAFundamentalParameter, InPlace.value, InPlace.UAFundamentalParameter, Codec.UAFundamentalParameter, UAFundamentalParameter.init, Param.put, Tree.change, value_asIs, value_orFresh, value_copy, Tree.or_list, UAFundamentalParameter.members, Tree.ints, Tree.objs, Tree.optInt, Tree.optObj, Tree.intOr, Tree.optFloat, Tree.noneOr, IntercomParametersValue.tree])

theorem ExplosionDescriptor.builds (explodingObject explosiveMaterial explosiveForce : Val × Tree) :
    Builds (ExplosionDescriptor.newHeap explodingObject.1 explosiveMaterial.1 explosiveForce.1) [explodingObject, explosiveMaterial, explosiveForce]
      (.obj [("explodingObject", explodingObject.2.or (.obj (EntityType.members EntityType.init))),
      ("explosiveMaterial", explosiveMaterial.2), ("padding", .sc (.int 0)),
      ("explosiveForce", explosiveForce.2)]) := by
  have a : Fills (fun self => ExplosionDescriptor.initHeap self explodingObject.1 explosiveMaterial.1 explosiveForce.1) [explodingObject, explosiveMaterial, explosiveForce]
      (([("explodingObject", .sc .absent), ("explosiveMaterial", .sc .absent), ("padding", .sc .absent), ("explosiveForce", .sc .absent)] : List (String × Tree)) ++ []) []
      [("explodingObject", explodingObject.2.or (.obj (EntityType.members EntityType.init))),
      ("explosiveMaterial", explosiveMaterial.2), ("padding", .sc (.int 0)),
      ("explosiveForce", explosiveForce.2)] := by
    unfold ExplosionDescriptor.initHeap
    refine .bind (.or (p := explodingObject) EntityType.makesNew (by simp [attrOf_putAttr_isSome, attrOf, ExplosionDescriptor.members])) ?_
    refine .bind (.arg (p := explosiveMaterial) (by simp [attrOf_putAttr_isSome, attrOf, ExplosionDescriptor.members])) ?_
    refine .bind (.inits (.set' (by simp [attrOf_putAttr_isSome, attrOf, ExplosionDescriptor.members]))) ?_
    exact .cast (.arg (p := explosiveForce) (by simp [attrOf_putAttr_isSome, attrOf, ExplosionDescriptor.members]))
      (by simp [putAttr, ExplosionDescriptor.members, Tree.ints, Tree.objs, Tree.optInt, Tree.optObj, Tree.intOr, Tree.optFloat, Tree.noneOr, IntercomParametersValue.tree])
  exact .new a

theorem Ctor.ExplosionDescriptor.lawful : Ctor.ExplosionDescriptor.Lawful := by
  intro kv kt e ok
  refine .select [("explodingObject", .none), ("explosiveMaterial", .int 0), ("explosiveForce", .float 0x0000000000000000)] (by simp) e ?_
  exact .cast (ExplosionDescriptor.builds ((attrOf "explodingObject" kv).getD (.sc (.none)), (attrOf "explodingObject" kt).getD (.sc (.none))) ((attrOf "explosiveMaterial" kv).getD (.sc (.int 0)), (attrOf "explosiveMaterial" kt).getD (.sc (.int 0))) ((attrOf "explosiveForce" kv).getD (.sc (.float 0x0000000000000000)), (attrOf "explosiveForce" kt).getD (.sc (.float 0x0000000000000000)))) (by
    simp [Ctor.built, Ctor.ExplosionDescriptor, HeapClass.ExplosionDescriptor, InPlace.value, InPlace.ExplosionDescriptor, Codec.ExplosionDescriptor, ExplosionDescriptor.init, Param.put, Tree.change, value_asIs, value_orFresh, value_copy, Tree.or_list, ExplosionDescriptor.members, Tree.ints, Tree.objs, Tree.optInt, Tree.optObj, Tree.intOr, Tree.optFloat, Tree.noneOr, IntercomParametersValue.tree])

theorem ClockTime.builds (hour timePastHour : Val × Tree) :
    Builds (ClockTime.newHeap hour.1 timePastHour.1) [hour, timePastHour]
      (.obj [("hour", hour.2), ("timePastHour", timePastHour.2)]) := by
  have a : Fills (fun self => ClockTime.initHeap self hour.1 timePastHour.1) [hour, timePastHour]
      (([("hour", .sc .absent), ("timePastHour", .sc .absent)] : List (String × Tree)) ++ []) []
      [("hour", hour.2), ("timePastHour", timePastHour.2)] := by
    unfold ClockTime.initHeap
    refine .bind (.arg (p := hour) (by simp [attrOf_putAttr_isSome, attrOf, ClockTime.members])) ?_
    exact .cast (.arg (p := timePastHour) (by simp [attrOf_putAttr_isSome, attrOf, ClockTime.members]))
      (by simp [putAttr, ClockTime.members, Tree.ints, Tree.objs, Tree.optInt, Tree.optObj, Tree.intOr, Tree.optFloat, Tree.noneOr, IntercomParametersValue.tree])
  exact .new a

theorem Ctor.ClockTime.lawful : Ctor.ClockTime.Lawful := by
  intro kv kt e ok
  refine .select [("hour", .int 0), ("timePastHour", .int 0)] (by simp) e ?_
  exact .cast (ClockTime.builds ((attrOf "hour" kv).getD (.sc (.int 0)), (attrOf "hour" kt).getD (.sc (.int 0))) ((attrOf "timePastHour" kv).getD (.sc (.int 0)), (attrOf "timePastHour" kt).getD (.sc (.int 0)))) (by
    simp [Ctor.built, Ctor.ClockTime, HeapClass.ClockTime, InPlace.value, InPlace.ClockTime, Codec.ClockTime, ClockTime.init, Param.put, Tree.change, value_asIs, value_orFresh, value_copy, Tree.or_list, ClockTime.members, Tree.ints, Tree.objs, Tree.optInt, Tree.optObj, Tree.intOr, Tree.optFloat, Tree.noneOr, IntercomParametersValue.tree])

theorem SecondaryOperationalData.builds (operationalData1 operationalData2 numberOfIFFFundamentalParameterRecords : Val × Tree) :
    Builds (SecondaryOperationalData.newHeap operationalData1.1 operationalData2.1 numberOfIFFFundamentalParameterRecords.1) [operationalData1, operationalData2, numberOfIFFFundamentalParameterRecords]
      (.obj [("operationalData1", operationalData1.2), ("operationalData2", operationalData2.2),
      ("numberOfIFFFundamentalParameterRecords", numberOfIFFFundamentalParameterRecords.2)]) := by
  have a : Fills (fun self => SecondaryOperationalData.initHeap self operationalData1.1 operationalData2.1 numberOfIFFFundamentalParameterRecords.1) [operationalData1, operationalData2, numberOfIFFFundamentalParameterRecords]
      (([("operationalData1", .sc .absent), ("operationalData2", .sc .absent), ("numberOfIFFFundamentalParameterRecords", .sc .absent)] : List (String × Tree)) ++ []) []
      [("operationalData1", operationalData1.2), ("operationalData2", operationalData2.2),
      ("numberOfIFFFundamentalParameterRecords", numberOfIFFFundamentalParameterRecords.2)] := by
    unfold SecondaryOperationalData.initHeap
    refine .bind (.arg (p := operationalData1) (by simp [attrOf_putAttr_isSome, attrOf, SecondaryOperationalData.members])) ?_
    refine .bind (.arg (p := operationalData2) (by simp [attrOf_putAttr_isSome, attrOf, SecondaryOperationalData.members])) ?_
    exact .cast (.arg (p := numberOfIFFFundamentalParameterRecords) (by simp [attrOf_putAttr_isSome, attrOf, SecondaryOperationalData.members]))
      (by simp [putAttr, SecondaryOperationalData.members, Tree.ints, Tree.objs, Tree.optInt, Tree.optObj, Tree.intOr, Tree.optFloat, Tree.noneOr, IntercomParametersValue.tree])
  exact .new a

theorem Ctor.SecondaryOperationalData.lawful : Ctor.SecondaryOperationalData.Lawful := by
  intro kv kt e ok
  refine .select [("operationalData1", .int 0), ("operationalData2", .int 0), ("numberOfIFFFundamentalParameterRecords", .int 0)] (by simp) e ?_
  exact .cast (SecondaryOperationalData.builds ((attrOf "operationalData1" kv).getD (.sc (.int 0)), (attrOf "operationalData1" kt).getD (.sc (.int 0))) ((attrOf "operationalData2" kv).getD (.sc (.int 0)), (attrOf "operationalData2" kt).getD (.sc (.int 0))) ((attrOf "numberOfIFFFundamentalParameterRecords" kv).getD (.sc (.int 0)), (attrOf "numberOfIFFFundamentalParameterRecords" kt).getD (.sc (.int 0)))) (by
    simp [Ctor.built, Ctor.SecondaryOperationalData, HeapClass.SecondaryOperationalData, InPlace.value, InPlace.SecondaryOperationalData, Codec.SecondaryOperationalData, SecondaryOperationalData.init, Param.put, Tree.change, value_asIs, value_orFresh, value_copy, Tree.or_list, SecondaryOperationalData.members, Tree.ints, Tree.objs, Tree.optInt, Tree.optObj, Tree.intOr, Tree.optFloat, Tree.noneOr, IntercomParametersValue.tree])

theorem EnvironmentType.builds (entityKind domain entityClass category subcategory specific extra : Val × Tree) :
    Builds (EnvironmentType.newHeap entityKind.1 domain.1 entityClass.1 category.1 subcategory.1 specific.1 extra.1) [entityKind, domain, entityClass, category, subcategory, specific, extra]
      (.obj [("entityKind", entityKind.2), ("domain", domain.2), ("entityClass", entityClass.2),
      ("category", category.2), ("subcategory", subcategory.2), ("specific", specific.2), ("extra", extra.2)]) := by
  have a : Fills (fun self => EnvironmentType.initHeap self entityKind.1 domain.1 entityClass.1 category.1 subcategory.1 specific.1 extra.1) [entityKind, domain, entityClass, category, subcategory, specific, extra]
      (([("entityKind", .sc .absent), ("domain", .sc .absent), ("entityClass", .sc .absent), ("category", .sc .absent), ("subcategory", .sc .absent), ("specific", .sc .absent), ("extra", .sc .absent)] : List (String × Tree)) ++ []) []
      [("entityKind", entityKind.2), ("domain", domain.2), ("entityClass", entityClass.2),
      ("category", category.2), ("subcategory", subcategory.2), ("specific", specific.2), ("extra", extra.2)] := by
    unfold EnvironmentType.initHeap
    refine .bind (.arg (p := entityKind) (by simp [attrOf_putAttr_isSome, attrOf, EnvironmentType.members])) ?_
    refine .bind (.arg (p := domain) (by simp [attrOf_putAttr_isSome, attrOf, EnvironmentType.members])) ?_
    refine .bind (.arg (p := entityClass) (by simp [attrOf_putAttr_isSome, attrOf, EnvironmentType.members])) ?_
    refine .bind (.arg (p := category) (by simp [attrOf_putAttr_isSome, attrOf, EnvironmentType.members])) ?_
    refine .bind (.arg (p := subcategory) (by simp [attrOf_putAttr_isSome, attrOf, EnvironmentType.members])) ?_
    refine .bind (.arg (p := specific) (by simp [attrOf_putAttr_isSome, attrOf, EnvironmentType.members])) ?_
    exact .cast (.arg (p := extra) (by simp [attrOf_putAttr_isSome, attrOf, EnvironmentType.members]))
      (by simp [putAttr, EnvironmentType.members, Tree.ints, Tree.objs, Tree.optInt, Tree.optObj, Tree.intOr, Tree.optFloat, Tree.noneOr, IntercomParametersValue.tree])
  exact .new a

theorem Ctor.EnvironmentType.lawful : Ctor.EnvironmentType.Lawful := by
  intro kv kt e ok
  refine .select [("entityKind", .int 0), ("domain", .int 0), ("entityClass", .int 0), ("category", .int 0), ("subcategory", .int 0), ("specific", .int 0), ("extra", .int 0)] (by simp) e ?_
  exact .cast (EnvironmentType.builds ((attrOf "entityKind" kv).getD (.sc (.int 0)), (attrOf "entityKind" kt).getD (.sc (.int 0))) ((attrOf "domain" kv).getD (.sc (.int 0)), (attrOf "domain" kt).getD (.sc (.int 0))) ((attrOf "entityClass" kv).getD (.sc (.int 0)), (attrOf "entityClass" kt).getD (.sc (.int 0))) ((attrOf "category" kv).getD (.sc (.int 0)), (attrOf "category" kt).getD (.sc (.int 0))) ((attrOf "subcategory" kv).getD (.sc (.int 0)), (attrOf "subcategory" kt).getD (.sc (.int 0))) ((attrOf "specific" kv).getD (.sc (.int 0)), (attrOf "specific" kt).getD (.sc (.int 0))) ((attrOf "extra" kv).getD (.sc (.int 0)), (attrOf "extra" kt).getD (.sc (.int 0)))) (by
    simp [Ctor.built, Ctor.EnvironmentType, HeapClass.EnvironmentType, InPlace.value, InPlace.EnvironmentType, Codec.EnvironmentType, EnvironmentType.init, Param.put, Tree.change, value_asIs, value_orFresh, value_copy, Tree.or_list, EnvironmentType.members, Tree.ints, Tree.objs, Tree.optInt, Tree.optObj, Tree.intOr, Tree.optFloat, Tree.noneOr, IntercomParametersValue.tree])

theorem TotalRecordSets.builds (totalRecordSets : Val × Tree) :
    Builds (TotalRecordSets.newHeap totalRecordSets.1) [totalRecordSets]
      (.obj [("totalRecordSets", totalRecordSets.2), ("padding", .sc (.int 0))]) := by
  have a : Fills (fun self => TotalRecordSets.initHeap self totalRecordSets.1) [totalRecordSets]
      (([("totalRecordSets", .sc .absent), ("padding", .sc .absent)] : List (String × Tree)) ++ []) []
      [("totalRecordSets", totalRecordSets.2), ("padding", .sc (.int 0))] := by
    unfold TotalRecordSets.initHeap
    refine .bind (.arg (p := totalRecordSets) (by simp [attrOf_putAttr_isSome, attrOf, TotalRecordSets.members])) ?_
    exact .cast (.inits (.set' (by simp [attrOf_putAttr_isSome, attrOf, TotalRecordSets.members])))
      (by simp [putAttr, TotalRecordSets.members, Tree.ints, Tree.objs, Tree.optInt, Tree.optObj, Tree.intOr, Tree.optFloat, Tree.noneOr, IntercomParametersValue.tree])
  exact .new a

theorem Ctor.TotalRecordSets.lawful : Ctor.TotalRecordSets.Lawful := by
  intro kv kt e ok
  refine .select [("totalRecordSets", .int 0)] (by simp) e ?_
  exact .cast (TotalRecordSets.builds ((attrOf "totalRecordSets" kv).getD (.sc (.int 0)), (attrOf "totalRecordSets" kt).getD (.sc (.int 0)))) (by
    simp [Ctor.built, Ctor.TotalRecordSets, HeapClass.TotalRecordSets, InPlace.value, InPlace.TotalRecordSets, Codec.TotalRecordSets, TotalRecordSets.init, Param.put, Tree.change, value_asIs, value_orFresh, value_copy, Tree.or_list, TotalRecordSets.members, Tree.ints, Tree.objs, Tree.optInt, Tree.optObj, Tree.intOr, Tree.optFloat, Tree.noneOr, IntercomParametersValue.tree])

theorem MineEntityIdentifier.builds (simulationAddress mineEntityNumber : Val × Tree) :
    Builds (MineEntityIdentifier.newHeap simulationAddress.1 mineEntityNumber.1) [simulationAddress, mineEntityNumber]
      (.obj [("simulationAddress", simulationAddress.2.or (.obj (SimulationAddress.members SimulationAddress.init))),
      ("mineEntityNumber", mineEntityNumber.2)]) := by
  have a : Fills (fun self => MineEntityIdentifier.initHeap self simulationAddress.1 mineEntityNumber.1) [simulationAddress, mineEntityNumber]
      (([("simulationAddress", .sc .absent), ("mineEntityNumber", .sc .absent)] : List (String × Tree)) ++ []) []
      [("simulationAddress", simulationAddress.2.or (.obj (SimulationAddress.members SimulationAddress.init))),
      ("mineEntityNumber", mineEntityNumber.2)] := by
    unfold MineEntityIdentifier.initHeap
    refine .bind (.or (p := simulationAddress) SimulationAddress.makesNew (by simp [attrOf_putAttr_isSome, attrOf, MineEntityIdentifier.members])) ?_
    exact .cast (.arg (p := mineEntityNumber) (by simp [attrOf_putAttr_isSome, attrOf, MineEntityIdentifier.members]))
      (by simp [putAttr, MineEntityIdentifier.members, Tree.ints, Tree.objs, Tree.optInt, Tree.optObj, Tree.intOr, Tree.optFloat, Tree.noneOr, IntercomParametersValue.tree])
  exact .new a

theorem Ctor.MineEntityIdentifier.lawful : Ctor.MineEntityIdentifier.Lawful := by
  intro kv kt e ok
  refine .select [("simulationAddress", .none), ("mineEntityNumber", .int 0)] (by simp) e ?_
  exact .cast (MineEntityIdentifier.builds ((attrOf "simulationAddress" kv).getD (.sc (.none)), (attrOf "simulationAddress" kt).getD (.sc (.none))) ((attrOf "mineEntityNumber" kv).getD (.sc (.int 0)), (attrOf "mineEntityNumber" kt).getD (.sc (.int 0)))) (by
    simp [Ctor.built, Ctor.MineEntityIdentifier, HeapClass.MineEntityIdentifier, InPlace.value, InPlace.MineEntityIdentifier, Codec.MineEntityIdentifier, MineEntityIdentifier.init, Param.put, Tree.change, value_asIs, value_orFresh, value_copy, Tree.or_list, MineEntityIdentifier.members, Tree.ints, Tree.objs, Tree.optInt, Tree.optObj, Tree.intOr, Tree.optFloat, Tree.noneOr, IntercomParametersValue.tree])

theorem Relationship.builds (nature position : Val × Tree) :
    Builds (Relationship.newHeap nature.1 position.1) [nature, position]
      (.obj [("nature", nature.2), ("position", position.2)]) := by
  have a : Fills (fun self => Relationship.initHeap self nature.1 position.1) [nature, position]
      (([("nature", .sc .absent), ("position", .sc .absent)] : List (String × Tree)) ++ []) []
      [("nature", nature.2), ("position", position.2)] := by
    unfold Relationship.initHeap
    refine .bind (.arg (p := nature) (by simp [attrOf_putAttr_isSome, attrOf, Relationship.members])) ?_
    exact .cast (.arg (p := position) (by simp [attrOf_putAttr_isSome, attrOf, Relationship.members]))
      (by simp [putAttr, Relationship.members, Tree.ints, Tree.objs, Tree.optInt, Tree.optObj, Tree.intOr, Tree.optFloat, Tree.noneOr, IntercomParametersValue.tree])
  exact .new a

theorem Ctor.Relationship.lawful : Ctor.Relationship.Lawful := by
  intro kv kt e ok
  refine .select [("nature", .int 0), ("position", .int 0)] (by simp) e ?_
  exact .cast (Relationship.builds ((attrOf "nature" kv).getD (.sc (.int 0)), (attrOf "nature" kt).getD (.sc (.int 0))) ((attrOf "position" kv).getD (.sc (.int 0)), (attrOf "position" kt).getD (.sc (.int 0)))) (by
    simp [Ctor.built, Ctor.Relationship, HeapClass.Relationship, InPlace.value, InPlace.Relationship, Codec.Relationship, Relationship.init, Param.put, Tree.change, value_asIs, value_orFresh, value_copy, Tree.or_list, Relationship.members, Tree.ints, Tree.objs, Tree.optInt, Tree.optObj, Tree.intOr, Tree.optFloat, Tree.noneOr, IntercomParametersValue.tree])

theorem EEFundamentalParameterData.builds (frequency frequencyRange effectiveRadiatedPower pulseRepetitionFrequency pulseWidth beamAzimuthCenter beamAzimuthSweep beamElevationCenter beamElevationSweep beamSweepSync : Val × Tree) :
    Builds (EEFundamentalParameterData.newHeap frequency.1 frequencyRange.1 effectiveRadiatedPower.1 pulseRepetitionFrequency.1 pulseWidth.1 beamAzimuthCenter.1 beamAzimuthSweep.1 beamElevationCenter.1 beamElevationSweep.1 beamSweepSync.1) [frequency, frequencyRange, effectiveRadiatedPower, pulseRepetitionFrequency, pulseWidth, beamAzimuthCenter, beamAzimuthSweep, beamElevationCenter, beamElevationSweep, beamSweepSync]
      (.obj [("frequency", frequency.2), ("frequencyRange", frequencyRange.2),
      ("effectiveRadiatedPower", effectiveRadiatedPower.2),
      ("pulseRepetitionFrequency", pulseRepetitionFrequency.2), ("pulseWidth", pulseWidth.2),
      ("beamAzimuthCenter", beamAzimuthCenter.2), ("beamAzimuthSweep", beamAzimuthSweep.2),
      ("beamElevationCenter", beamElevationCenter.2), ("beamElevationSweep", beamElevationSweep.2),
      ("beamSweepSync", beamSweepSync.2)]) := by
  have a : Fills (fun self => EEFundamentalParameterData.initHeap self frequency.1 frequencyRange.1 effectiveRadiatedPower.1 pulseRepetitionFrequency.1 pulseWidth.1 beamAzimuthCenter.1 beamAzimuthSweep.1 beamElevationCenter.1 beamElevationSweep.1 beamSweepSync.1) [frequency, frequencyRange, effectiveRadiatedPower, pulseRepetitionFrequency, pulseWidth, beamAzimuthCenter, beamAzimuthSweep, beamElevationCenter, beamElevationSweep, beamSweepSync]
      (([("frequency", .sc .absent), ("frequencyRange", .sc .absent), ("effectiveRadiatedPower", .sc .absent), ("pulseRepetitionFrequency", .sc .absent), ("pulseWidth", .sc .absent), ("beamAzimuthCenter", .sc .absent), ("beamAzimuthSweep", .sc .absent), ("beamElevationCenter", .sc .absent), ("beamElevationSweep", .sc .absent), ("beamSweepSync", .sc .absent)] : List (String × Tree)) ++ []) []
      [("frequency", frequency.2), ("frequencyRange", frequencyRange.2),
      ("effectiveRadiatedPower", effectiveRadiatedPower.2),
      ("pulseRepetitionFrequency", pulseRepetitionFrequency.2), ("pulseWidth", pulseWidth.2),
      ("beamAzimuthCenter", beamAzimuthCenter.2), ("beamAzimuthSweep", beamAzimuthSweep.2),
      ("beamElevationCenter", beamElevationCenter.2), ("beamElevationSweep", beamElevationSweep.2),
      ("beamSweepSync", beamSweepSync.2)] := by
    unfold EEFundamentalParameterData.initHeap
    refine .bind (.arg (p := frequency) (by simp [attrOf_putAttr_isSome, attrOf, EEFundamentalParameterData.members])) ?_
    refine .bind (.arg (p := frequencyRange) (by simp [attrOf_putAttr_isSome, attrOf, EEFundamentalParameterData.members])) ?_
    refine .bind (.arg (p := effectiveRadiatedPower) (by simp [attrOf_putAttr_isSome, attrOf, EEFundamentalParameterData.members])) ?_
    refine .bind (.arg (p := pulseRepetitionFrequency) (by simp [attrOf_putAttr_isSome, attrOf, EEFundamentalParameterData.members])) ?_
    refine .bind (.arg (p := pulseWidth) (by simp [attrOf_putAttr_isSome, attrOf, EEFundamentalParameterData.members])) ?_
    refine .bind (.arg (p := beamAzimuthCenter) (by simp [attrOf_putAttr_isSome, attrOf, EEFundamentalParameterData.members])) ?_
    refine .bind (.arg (p := beamAzimuthSweep) (by simp [attrOf_putAttr_isSome, attrOf, EEFundamentalParameterData.members])) ?_
    refine .bind (.arg (p := beamElevationCenter) (by simp [attrOf_putAttr_isSome, attrOf, EEFundamentalParameterData.members])) ?_
    refine .bind (.arg (p := beamElevationSweep) (by simp [attrOf_putAttr_isSome, attrOf, EEFundamentalParameterData.members])) ?_
    exact .cast (.arg (p := beamSweepSync) (by simp [attrOf_putAttr_isSome, attrOf, EEFundamentalParameterData.members]))
      (by simp [putAttr, EEFundamentalParameterData.members, Tree.ints, Tree.objs, Tree.optInt, Tree.optObj, Tree.intOr, Tree.optFloat, Tree.noneOr, IntercomParametersValue.tree])
  exact .new a

theorem Ctor.EEFundamentalParameterData.lawful : Ctor.EEFundamentalParameterData.Lawful := by
  intro kv kt e ok
  refine .select [("frequency", .float 0x0000000000000000), ("frequencyRange", .float 0x0000000000000000), ("effectiveRadiatedPower", .float 0x0000000000000000), ("pulseRepetitionFrequency", .float 0x0000000000000000), ("pulseWidth", .float 0x0000000000000000), ("beamAzimuthCenter", .float 0x0000000000000000), ("beamAzimuthSweep", .float 0x0000000000000000), ("beamElevationCenter", .float 0x0000000000000000), ("beamElevationSweep", .float 0x0000000000000000), ("beamSweepSync", .float 0x0000000000000000)] (by simp) e ?_
  exact .cast (EEFundamentalParameterData.builds ((attrOf "frequency" kv).getD (.sc (.float 0x0000000000000000)), (attrOf "frequency" kt).getD (.sc (.float 0x0000000000000000))) ((attrOf "frequencyRange" kv).getD (.sc (.float 0x0000000000000000)), (attrOf "frequencyRange" kt).getD (.sc (.float 0x0000000000000000))) ((attrOf "effectiveRadiatedPower" kv).getD (.sc (.float 0x0000000000000000)), (attrOf "effectiveRadiatedPower" kt).getD (.sc (.float 0x0000000000000000))) ((attrOf "pulseRepetitionFrequency" kv).getD (.sc (.float 0x0000000000000000)), (attrOf "pulseRepetitionFrequency" kt).getD (.sc (.float 0x0000000000000000))) ((attrOf "pulseWidth" kv).getD (.sc (.float 0x0000000000000000)), (attrOf "pulseWidth" kt).getD (.sc (.float 0x0000000000000000))) ((attrOf "beamAzimuthCenter" kv).getD (.sc (.float 0x0000000000000000)), (attrOf "beamAzimuthCenter" kt).getD (.sc (.float 0x0000000000000000))) ((attrOf "beamAzimuthSweep" kv).getD (.sc (.float 0x0000000000000000)), (attrOf "beamAzimuthSweep" kt).getD (.sc (.float 0x0000000000000000))) ((attrOf "beamElevationCenter" kv).getD (.sc (.float 0x0000000000000000)), (attrOf "beamElevationCenter" kt).getD (.sc (.float 0x0000000000000000))) ((attrOf "beamElevationSweep" kv).getD (.sc (.float 0x0000000000000000)), (attrOf "beamElevationSweep" kt).getD (.sc (.float 0x0000000000000000))) ((attrOf "beamSweepSync" kv).getD (.sc (.float 0x0000000000000000)), (attrOf "beamSweepSync" kt).getD (.sc (.float 0x0000000000000000)))) (by
    simp [Ctor.built, Ctor.EEFundamentalParameterData, HeapClass.EEFundamentalParameterData, InPlace.value, InPlace.EEFundamentalParameterData, Codec.EEFundamentalParameterData, EEFundamentalParameterData.init, Param.put, Tree.change, value_asIs, value_orFresh, value_copy, Tree.or_list, EEFundamentalParameterData.members, Tree.ints, Tree.objs, Tree.optInt, Tree.optObj, Tree.intOr, Tree.optFloat, Tree.noneOr, IntercomParametersValue.tree])

theorem JammingTechnique.builds (kind category subcategory specific : Val × Tree) :
    Builds (JammingTechnique.newHeap kind.1 category.1 subcategory.1 specific.1) [kind, category, subcategory, specific]
      (.obj [("kind", kind.2), ("category", category.2), ("subcategory", subcategory.2), ("specific", specific.2)]) := by
  have a : Fills (fun self => JammingTechnique.initHeap self kind.1 category.1 subcategory.1 specific.1) [kind, category, subcategory, specific]
      (([("kind", .sc .absent), ("category", .sc .absent), ("subcategory", .sc .absent), ("specific", .sc .absent)] : List (String × Tree)) ++ []) []
      [("kind", kind.2), ("category", category.2), ("subcategory", subcategory.2), ("specific", specific.2)] := by
    unfold JammingTechnique.initHeap
    refine .bind (.arg (p := kind) (by simp [attrOf_putAttr_isSome, attrOf, JammingTechnique.members])) ?_
    refine .bind (.arg (p := category) (by simp [attrOf_putAttr_isSome, attrOf, JammingTechnique.members])) ?_
    refine .bind (.arg (p := subcategory) (by simp [attrOf_putAttr_isSome, attrOf, JammingTechnique.members])) ?_
    exact .cast (.arg (p := specific) (by simp [attrOf_putAttr_isSome, attrOf, JammingTechnique.members]))
      (by simp [putAttr, JammingTechnique.members, Tree.ints, Tree.objs, Tree.optInt, Tree.optObj, Tree.intOr, Tree.optFloat, Tree.noneOr, IntercomParametersValue.tree])
  exact .new a

theorem Ctor.JammingTechnique.lawful : Ctor.JammingTechnique.Lawful := by
  intro kv kt e ok
  refine .select [("kind", .int 0), ("category", .int 0), ("subcategory", .int 0), ("specific", .int 0)] (by simp) e ?_
  exact .cast (JammingTechnique.builds ((attrOf "kind" kv).getD (.sc (.int 0)), (attrOf "kind" kt).getD (.sc (.int 0))) ((attrOf "category" kv).getD (.sc (.int 0)), (attrOf "category" kt).getD (.sc (.int 0))) ((attrOf "subcategory" kv).getD (.sc (.int 0)), (attrOf "subcategory" kt).getD (.sc (.int 0))) ((attrOf "specific" kv).getD (.sc (.int 0)), (attrOf "specific" kt).getD (.sc (.int 0)))) (by
    simp [Ctor.built, Ctor.JammingTechnique, HeapClass.JammingTechnique, InPlace.value, InPlace.JammingTechnique, Codec.JammingTechnique, JammingTechnique.init, Param.put, Tree.change, value_asIs, value_orFresh, value_copy, Tree.or_list, JammingTechnique.members, Tree.ints, Tree.objs, Tree.optInt, Tree.optObj, Tree.intOr, Tree.optFloat, Tree.noneOr, IntercomParametersValue.tree])

theorem VariableDatum.builds (variableDatumID variableDatumLength variableData : Val × Tree) :
    Builds (VariableDatum.newHeap variableDatumID.1 variableDatumLength.1 variableData.1) [variableDatumID, variableDatumLength, variableData]
      (.obj [("variableDatumID", variableDatumID.2), ("variableDatumLength", variableDatumLength.2),
      ("variableData", variableData.2.or (.list []))]) := by
  have a : Fills (fun self => VariableDatum.initHeap self variableDatumID.1 variableDatumLength.1 variableData.1) [variableDatumID, variableDatumLength, variableData]
      (([("variableDatumID", .sc .absent), ("variableDatumLength", .sc .absent), ("variableData", .sc .absent)] : List (String × Tree)) ++ []) []
      [("variableDatumID", variableDatumID.2), ("variableDatumLength", variableDatumLength.2),
      ("variableData", variableData.2.or (.list []))] := by
    unfold VariableDatum.initHeap
    refine .bind (.arg (p := variableDatumID) (by simp [attrOf_putAttr_isSome, attrOf, VariableDatum.members])) ?_
    refine .bind (.arg (p := variableDatumLength) (by simp [attrOf_putAttr_isSome, attrOf, VariableDatum.members])) ?_
    exact .cast (.or (p := variableData) .empty (by simp [attrOf_putAttr_isSome, attrOf, VariableDatum.members]))
      (by simp [putAttr, VariableDatum.members, Tree.ints, Tree.objs, Tree.optInt, Tree.optObj, Tree.intOr, Tree.optFloat, Tree.noneOr, IntercomParametersValue.tree])
  exact .new a

theorem Ctor.VariableDatum.lawful : Ctor.VariableDatum.Lawful := by
  intro kv kt e ok
  refine .select [("variableDatumID", .int 0), ("variableDatumLength", .int 0), ("variableData", .none)] (by simp) e ?_
  exact .cast (VariableDatum.builds ((attrOf "variableDatumID" kv).getD (.sc (.int 0)), (attrOf "variableDatumID" kt).getD (.sc (.int 0))) ((attrOf "variableDatumLength" kv).getD (.sc (.int 0)), (attrOf "variableDatumLength" kt).getD (.sc (.int 0))) ((attrOf "variableData" kv).getD (.sc (.none)), (attrOf "variableData" kt).getD (.sc (.none)))) (by
    simp [Ctor.built, Ctor.VariableDatum, HeapClass.VariableDatum, InPlace.value, InPlace.VariableDatum, Codec.VariableDatum, VariableDatum.init, Param.put, Tree.change, value_asIs, value_orFresh, value_copy, Tree.or_list, VariableDatum.members, Tree.ints, Tree.objs, Tree.optInt, Tree.optObj, Tree.intOr, Tree.optFloat, Tree.noneOr, IntercomParametersValue.tree])

theorem DatumSpecification.builds (fixedDatumRecords variableDatumRecords : Val × Tree) :
    Builds (DatumSpecification.newHeap fixedDatumRecords.1 variableDatumRecords.1) [fixedDatumRecords, variableDatumRecords]
      (.obj [("fixedDatumRecords", fixedDatumRecords.2.or (.list [])),
      ("variableDatumRecords", variableDatumRecords.2.or (.list []))]) := by
  have a : Fills (fun self => DatumSpecification.initHeap self fixedDatumRecords.1 variableDatumRecords.1) [fixedDatumRecords, variableDatumRecords]
      (([("fixedDatumRecords", .sc .absent), ("variableDatumRecords", .sc .absent)] : List (String × Tree)) ++ []) []
      [("fixedDatumRecords", fixedDatumRecords.2.or (.list [])),
      ("variableDatumRecords", variableDatumRecords.2.or (.list []))] := by
    unfold DatumSpecification.initHeap
    refine .bind (.or (p := fixedDatumRecords) .empty (by simp [attrOf_putAttr_isSome, attrOf, DatumSpecification.members])) ?_
    exact .cast (.or (p := variableDatumRecords) .empty (by simp [attrOf_putAttr_isSome, attrOf, DatumSpecification.members]))
      (by simp [putAttr, DatumSpecification.members, Tree.ints, Tree.objs, Tree.optInt, Tree.optObj, Tree.intOr, Tree.optFloat, Tree.noneOr, IntercomParametersValue.tree])
  exact .new a

theorem Ctor.DatumSpecification.lawful : Ctor.DatumSpecification.Lawful := by
  intro kv kt e ok
  refine .select [("fixedDatumRecords", .none), ("variableDatumRecords", .none)] (by simp) e ?_
  exact .cast (DatumSpecification.builds ((attrOf "fixedDatumRecords" kv).getD (.sc (.none)), (attrOf "fixedDatumRecords" kt).getD (.sc (.none))) ((attrOf "variableDatumRecords" kv).getD (.sc (.none)), (attrOf "variableDatumRecords" kt).getD (.sc (.none)))) (by
    simp [Ctor.built, Ctor.DatumSpecification, HeapClass.DatumSpecification, InPlace.value, InPlace.DatumSpecification, Codec.DatumSpecification, DatumSpecification.init, Param.put, Tree.change, value_asIs, value_orFresh, value_copy, Tree.or_list, DatumSpecification.members, Tree.ints, Tree.objs, Tree.optInt, Tree.optObj, Tree.intOr, Tree.optFloat, Tree.noneOr, IntercomParametersValue.tree])

theorem Expendable.builds (expendable station quantity expendableStatus : Val × Tree) :
    Builds (Expendable.newHeap expendable.1 station.1 quantity.1 expendableStatus.1) [expendable, station, quantity, expendableStatus]
      (.obj [("expendable", expendable.2.or (.obj (EntityType.members EntityType.init))), ("station", station.2),
      ("quantity", quantity.2), ("expendableStatus", expendableStatus.2), ("padding", .sc (.int 0))]) := by
  have a : Fills (fun self => Expendable.initHeap self expendable.1 station.1 quantity.1 expendableStatus.1) [expendable, station, quantity, expendableStatus]
      (([("expendable", .sc .absent), ("station", .sc .absent), ("quantity", .sc .absent), ("expendableStatus", .sc .absent), ("padding", .sc .absent)] : List (String × Tree)) ++ []) []
      [("expendable", expendable.2.or (.obj (EntityType.members EntityType.init))), ("station", station.2),
      ("quantity", quantity.2), ("expendableStatus", expendableStatus.2), ("padding", .sc (.int 0))] := by
    unfold Expendable.initHeap
    refine .bind (.or (p := expendable) EntityType.makesNew (by simp [attrOf_putAttr_isSome, attrOf, Expendable.members])) ?_
    refine .bind (.arg (p := station) (by simp [attrOf_putAttr_isSome, attrOf, Expendable.members])) ?_
    refine .bind (.arg (p := quantity) (by simp [attrOf_putAttr_isSome, attrOf, Expendable.members])) ?_
    refine .bind (.arg (p := expendableStatus) (by simp [attrOf_putAttr_isSome, attrOf, Expendable.members])) ?_
    exact .cast (.inits (.set' (by simp [attrOf_putAttr_isSome, attrOf, Expendable.members])))
      (by simp [putAttr, Expendable.members, Tree.ints, Tree.objs, Tree.optInt, Tree.optObj, Tree.intOr, Tree.optFloat, Tree.noneOr, IntercomParametersValue.tree])
  exact .new a

theorem Ctor.Expendable.lawful : Ctor.Expendable.Lawful := by
  intro kv kt e ok
  refine .select [("expendable", .none), ("station", .int 0), ("quantity", .int 0), ("expendableStatus", .int 0)] (by simp) e ?_
  exact .cast (Expendable.builds ((attrOf "expendable" kv).getD (.sc (.none)), (attrOf "expendable" kt).getD (.sc (.none))) ((attrOf "station" kv).getD (.sc (.int 0)), (attrOf "station" kt).getD (.sc (.int 0))) ((attrOf "quantity" kv).getD (.sc (.int 0)), (attrOf "quantity" kt).getD (.sc (.int 0))) ((attrOf "expendableStatus" kv).getD (.sc (.int 0)), (attrOf "expendableStatus" kt).getD (.sc (.int 0)))) (by
    simp [Ctor.built, Ctor.Expendable, HeapClass.Expendable, InPlace.value, InPlace.Expendable, Codec.Expendable, Expendable.init, Param.put, Tree.change, value_asIs, value_orFresh, value_copy, Tree.or_list, Expendable.members, Tree.ints, Tree.objs, Tree.optInt, Tree.optObj, Tree.intOr, Tree.optFloat, Tree.noneOr, IntercomParametersValue.tree])

theorem CommunicationsNodeID.builds (entityID elementID : Val × Tree) :
    Builds (CommunicationsNodeID.newHeap entityID.1 elementID.1) [entityID, elementID]
      (.obj [("entityID", entityID.2.or (.obj (EntityIdentifier.members EntityIdentifier.init))),
      ("elementID", elementID.2)]) := by
  have a : Fills (fun self => CommunicationsNodeID.initHeap self entityID.1 elementID.1) [entityID, elementID]
      (([("entityID", .sc .absent), ("elementID", .sc .absent)] : List (String × Tree)) ++ []) []
      [("entityID", entityID.2.or (.obj (EntityIdentifier.members EntityIdentifier.init))),
      ("elementID", elementID.2)] := by
    unfold CommunicationsNodeID.initHeap
    refine .bind (.or (p := entityID) EntityIdentifier.makesNew (by simp [attrOf_putAttr_isSome, attrOf, CommunicationsNodeID.members])) ?_
    exact .cast (.arg (p := elementID) (by simp [attrOf_putAttr_isSome, attrOf, CommunicationsNodeID.members]))
      (by simp [putAttr, CommunicationsNodeID.members, Tree.ints, Tree.objs, Tree.optInt, Tree.optObj, Tree.intOr, Tree.optFloat, Tree.noneOr, IntercomParametersValue.tree])
  exact .new a

theorem Ctor.CommunicationsNodeID.lawful : Ctor.CommunicationsNodeID.Lawful := by
  intro kv kt e ok
  refine .select [("entityID", .none), ("elementID", .int 0)] (by simp) e ?_
  exact .cast (CommunicationsNodeID.builds ((attrOf "entityID" kv).getD (.sc (.none)), (attrOf "entityID" kt).getD (.sc (.none))) ((attrOf "elementID" kv).getD (.sc (.int 0)), (attrOf "elementID" kt).getD (.sc (.int 0)))) (by
    simp [Ctor.built, Ctor.CommunicationsNodeID, HeapClass.CommunicationsNodeID, InPlace.value, InPlace.CommunicationsNodeID, Codec.CommunicationsNodeID, CommunicationsNodeID.init, Param.put, Tree.change, value_asIs, value_orFresh, value_copy, Tree.or_list, CommunicationsNodeID.members, Tree.ints, Tree.objs, Tree.optInt, Tree.optObj, Tree.intOr, Tree.optFloat, Tree.noneOr, IntercomParametersValue.tree])

end Dis
