import Verif.Spec.Catalog
import Verif.Proof.Codec
import Verif.Proof.Special
import Verif.Proof.Variable
import Verif.Proof.LayoutSpecial
import Verif.Proof.Pdus5

/-!
# Every entry of the catalogue is verified

Generated by `tools/gencatalog.py`.
-/

namespace Dis

theorem EEFundamentalParameterData.bounded (o : EEFundamentalParameterData) : WidthL o.wire 40 :=
    WidthL.of_eq (WidthL.append (WidthL.one) <|
      WidthL.append (WidthL.one) <|
      WidthL.append (WidthL.one) <|
      WidthL.append (WidthL.one) <|
      WidthL.append (WidthL.one) <|
      WidthL.append (WidthL.one) <|
      WidthL.append (WidthL.one) <|
      WidthL.append (WidthL.one) <|
      WidthL.append (WidthL.one) <|
      WidthL.append (WidthL.one) <|
      WidthL.nil) (by rfl)

theorem PduSuperclass.bounded (o : PduSuperclass) : WidthL o.wire 10 :=
    WidthL.of_eq (WidthL.append (WidthL.one) <|
      WidthL.append (WidthL.one) <|
      WidthL.append (WidthL.one) <|
      WidthL.append (WidthL.one) <|
      WidthL.append (WidthL.one) <|
      WidthL.append (WidthL.one) <|
      WidthL.nil) (by rfl)

theorem Pdu.bounded (o : Pdu) : WidthL o.wire 12 :=
    WidthL.of_eq (WidthL.append ((PduSuperclass.bounded _)) <|
      WidthL.append (WidthL.one) <|
      WidthL.append (WidthL.one) <|
      WidthL.nil) (by rfl)

theorem EntityInformationFamilyPdu.bounded (o : EntityInformationFamilyPdu) : WidthL o.wire 12 :=
    (Pdu.bounded _)

theorem SimulationAddress.bounded (o : SimulationAddress) : WidthL o.wire 4 :=
    WidthL.of_eq (WidthL.append (WidthL.one) <|
      WidthL.append (WidthL.one) <|
      WidthL.nil) (by rfl)

theorem EntityIdentifier.bounded (o : EntityIdentifier) : WidthL o.wire 6 :=
    WidthL.of_eq (WidthL.append ((SimulationAddress.bounded _)) <|
      WidthL.append (WidthL.one) <|
      WidthL.nil) (by rfl)

theorem LogisticsFamilyPdu.bounded (o : LogisticsFamilyPdu) : WidthL o.wire 12 :=
    (Pdu.bounded _)

theorem RadioCommunicationsFamilyPdu.bounded (o : RadioCommunicationsFamilyPdu) : WidthL o.wire 12 :=
    (Pdu.bounded _)

theorem DistributedEmissionsFamilyPdu.bounded (o : DistributedEmissionsFamilyPdu) : WidthL o.wire 12 :=
    (Pdu.bounded _)

theorem EventIdentifier.bounded (o : EventIdentifier) : WidthL o.wire 6 :=
    WidthL.of_eq (WidthL.append ((SimulationAddress.bounded _)) <|
      WidthL.append (WidthL.one) <|
      WidthL.nil) (by rfl)

theorem SyntheticEnvironmentFamilyPdu.bounded (o : SyntheticEnvironmentFamilyPdu) : WidthL o.wire 12 :=
    (Pdu.bounded _)

theorem ObjectType.bounded (o : ObjectType) : WidthL o.wire 4 :=
    WidthL.of_eq (WidthL.append (WidthL.one) <|
      WidthL.append (WidthL.one) <|
      WidthL.append (WidthL.one) <|
      WidthL.append (WidthL.one) <|
      WidthL.nil) (by rfl)

theorem MinefieldFamilyPdu.bounded (o : MinefieldFamilyPdu) : WidthL o.wire 12 :=
    (Pdu.bounded _)

theorem MinefieldIdentifier.bounded (o : MinefieldIdentifier) : WidthL o.wire 6 :=
    WidthL.of_eq (WidthL.append ((SimulationAddress.bounded _)) <|
      WidthL.append (WidthL.one) <|
      WidthL.nil) (by rfl)

theorem EntityType.bounded (o : EntityType) : WidthL o.wire 8 :=
    WidthL.of_eq (WidthL.append (WidthL.one) <|
      WidthL.append (WidthL.one) <|
      WidthL.append (WidthL.one) <|
      WidthL.append (WidthL.one) <|
      WidthL.append (WidthL.one) <|
      WidthL.append (WidthL.one) <|
      WidthL.append (WidthL.one) <|
      WidthL.nil) (by rfl)

theorem WarfareFamilyPdu.bounded (o : WarfareFamilyPdu) : WidthL o.wire 24 :=
    WidthL.of_eq (WidthL.append ((Pdu.bounded _)) <|
      WidthL.append ((EntityIdentifier.bounded _)) <|
      WidthL.append ((EntityIdentifier.bounded _)) <|
      WidthL.nil) (by rfl)

theorem Vector3Float.bounded (o : Vector3Float) : WidthL o.wire 12 :=
    WidthL.of_eq (WidthL.append (WidthL.one) <|
      WidthL.append (WidthL.one) <|
      WidthL.append (WidthL.one) <|
      WidthL.nil) (by rfl)

theorem WorldCoordinates.bounded (o : WorldCoordinates) : WidthL o.wire 24 :=
    WidthL.of_eq (WidthL.append (WidthL.one) <|
      WidthL.append (WidthL.one) <|
      WidthL.append (WidthL.one) <|
      WidthL.nil) (by rfl)

theorem MunitionDescriptor.bounded (o : MunitionDescriptor) : WidthL o.wire 16 :=
    WidthL.of_eq (WidthL.append ((EntityType.bounded _)) <|
      WidthL.append (WidthL.one) <|
      WidthL.append (WidthL.one) <|
      WidthL.append (WidthL.one) <|
      WidthL.append (WidthL.one) <|
      WidthL.nil) (by rfl)

theorem SimulationManagementWithReliabilityFamilyPdu.bounded (o : SimulationManagementWithReliabilityFamilyPdu) : WidthL o.wire 24 :=
    WidthL.of_eq (WidthL.append ((Pdu.bounded _)) <|
      WidthL.append ((EntityIdentifier.bounded _)) <|
      WidthL.append ((EntityIdentifier.bounded _)) <|
      WidthL.nil) (by rfl)

theorem EntityManagementFamilyPdu.bounded (o : EntityManagementFamilyPdu) : WidthL o.wire 12 :=
    (Pdu.bounded _)

theorem AggregateIdentifier.bounded (o : AggregateIdentifier) : WidthL o.wire 6 :=
    WidthL.of_eq (WidthL.append ((SimulationAddress.bounded _)) <|
      WidthL.append (WidthL.one) <|
      WidthL.nil) (by rfl)

theorem AggregateType.bounded (o : AggregateType) : WidthL o.wire 8 :=
    WidthL.of_eq (WidthL.append (WidthL.one) <|
      WidthL.append (WidthL.one) <|
      WidthL.append (WidthL.one) <|
      WidthL.append (WidthL.one) <|
      WidthL.append (WidthL.one) <|
      WidthL.append (WidthL.one) <|
      WidthL.append (WidthL.one) <|
      WidthL.nil) (by rfl)

theorem AggregateMarking.bounded (o : AggregateMarking) : WidthL o.wire 32 :=
    WidthL.of_eq (WidthL.append (WidthL.one) <|
      WidthL.append (WidthL.range (n := 31) (m := 1) (fun _ => rfl)) <|
      WidthL.nil) (by rfl)

theorem EulerAngles.bounded (o : EulerAngles) : WidthL o.wire 12 :=
    WidthL.of_eq (WidthL.append (WidthL.one) <|
      WidthL.append (WidthL.one) <|
      WidthL.append (WidthL.one) <|
      WidthL.nil) (by rfl)

theorem ClockTime.bounded (o : ClockTime) : WidthL o.wire 8 :=
    WidthL.of_eq (WidthL.append (WidthL.one) <|
      WidthL.append (WidthL.one) <|
      WidthL.nil) (by rfl)

theorem DEFireFlags.bounded (o : DEFireFlags) : WidthL o.wire 2 := WidthL.one


theorem Codec.SimulationAddress.verified : Codec.SimulationAddress.Verified where
  rt s o _ := Dis.SimulationAddress.rt s o
  loc s := Dis.SimulationAddress.loc s
  lay o := Dis.SimulationAddress.lay o
  sized o := Dis.SimulationAddress.sized o
  ok_iff o := Dis.SimulationAddress.ok_iff o
  canon _ h := Dis.SimulationAddress.after_canon h
  post := Codec.post_plain (Dis.SimulationAddress.post)
  only _ s := Dis.SimulationAddress.only s
  counted := by
    intro c hc; cases hc
  appended := fun _ h => nomatch h

theorem Codec.EntityIdentifier.verified : Codec.EntityIdentifier.Verified where
  rt s o _ := Dis.EntityIdentifier.rt s o
  loc s := Dis.EntityIdentifier.loc s
  lay o := Dis.EntityIdentifier.lay o
  sized o := Dis.EntityIdentifier.sized o
  ok_iff o := Dis.EntityIdentifier.ok_iff o
  canon _ h := Dis.EntityIdentifier.after_canon h
  post := Codec.post_plain (Dis.EntityIdentifier.post)
  only _ s := Dis.EntityIdentifier.only s
  counted := by
    intro c hc; cases hc
  appended := fun _ h => nomatch h

theorem Codec.EulerAngles.verified : Codec.EulerAngles.Verified where
  rt s o _ := Dis.EulerAngles.rt s o
  loc s := Dis.EulerAngles.loc s
  lay o := Dis.EulerAngles.lay o
  sized o := Dis.EulerAngles.sized o
  ok_iff o := Dis.EulerAngles.ok_iff o
  canon _ h := Dis.EulerAngles.after_canon h
  post := Codec.post_plain (Dis.EulerAngles.post)
  only _ s := Dis.EulerAngles.only s
  counted := by
    intro c hc; cases hc
  appended := fun _ h => nomatch h

theorem Codec.EventIdentifier.verified : Codec.EventIdentifier.Verified where
  rt s o _ := Dis.EventIdentifier.rt s o
  loc s := Dis.EventIdentifier.loc s
  lay o := Dis.EventIdentifier.lay o
  sized o := Dis.EventIdentifier.sized o
  ok_iff o := Dis.EventIdentifier.ok_iff o
  canon _ h := Dis.EventIdentifier.after_canon h
  post := Codec.post_plain (Dis.EventIdentifier.post)
  only _ s := Dis.EventIdentifier.only s
  counted := by
    intro c hc; cases hc
  appended := fun _ h => nomatch h

theorem Codec.Vector3Float.verified : Codec.Vector3Float.Verified where
  rt s o _ := Dis.Vector3Float.rt s o
  loc s := Dis.Vector3Float.loc s
  lay o := Dis.Vector3Float.lay o
  sized o := Dis.Vector3Float.sized o
  ok_iff o := Dis.Vector3Float.ok_iff o
  canon _ h := Dis.Vector3Float.after_canon h
  post := Codec.post_plain (Dis.Vector3Float.post)
  only _ s := Dis.Vector3Float.only s
  counted := by
    intro c hc; cases hc
  appended := fun _ h => nomatch h

theorem Codec.WorldCoordinates.verified : Codec.WorldCoordinates.Verified where
  rt s o _ := Dis.WorldCoordinates.rt s o
  loc s := Dis.WorldCoordinates.loc s
  lay o := Dis.WorldCoordinates.lay o
  sized o := Dis.WorldCoordinates.sized o
  ok_iff o := Dis.WorldCoordinates.ok_iff o
  canon _ h := Dis.WorldCoordinates.after_canon h
  post := Codec.post_plain (Dis.WorldCoordinates.post)
  only _ s := Dis.WorldCoordinates.only s
  counted := by
    intro c hc; cases hc
  appended := fun _ h => nomatch h

theorem catalogCommon_verified : ∀ c ∈ catalogCommon, c.Verified := by
  intro c hc
  simp only [catalogCommon, List.mem_cons, List.not_mem_nil, or_false] at hc
  rcases hc with rfl | rfl | rfl | rfl | rfl | rfl
  · exact Codec.SimulationAddress.verified
  · exact Codec.EntityIdentifier.verified
  · exact Codec.EulerAngles.verified
  · exact Codec.EventIdentifier.verified
  · exact Codec.Vector3Float.verified
  · exact Codec.WorldCoordinates.verified

theorem Codec.DataQueryDatumSpecification.verified : Codec.DataQueryDatumSpecification.Verified where
  rt s o _ := Dis.DataQueryDatumSpecification.rt s o
  loc s := Dis.DataQueryDatumSpecification.loc s
  lay o := Dis.DataQueryDatumSpecification.lay o
  sized o := Dis.DataQueryDatumSpecification.sized o
  ok_iff o := Dis.DataQueryDatumSpecification.ok_iff o
  canon _ h := Dis.DataQueryDatumSpecification.after_canon h
  post := Codec.post_plain (Dis.DataQueryDatumSpecification.post)
  only _ s := Dis.DataQueryDatumSpecification.only s
  counted := by
    refine List.forall_mem_cons.2 ⟨fun o => CountField.At.unsigned (pre := [].flatten)
        (post := [[.u32 (o.variableDatumIDs.length : Int)], o.fixedDatumIDs.map Slot.u32, o.variableDatumIDs.map Slot.u32].flatten)
        (by simp [Codec.DataQueryDatumSpecification, Dis.DataQueryDatumSpecification.wire]) (SizedL.of_eq (n := _) (SizedL.nil) (by rfl)) (by decide)
        (WidthL.of_eq (WidthL.nil) (by rfl)), ?_⟩
    refine List.forall_mem_cons.2 ⟨fun o => CountField.At.unsigned (pre := [[.u32 (o.fixedDatumIDs.length : Int)]].flatten)
        (post := [o.fixedDatumIDs.map Slot.u32, o.variableDatumIDs.map Slot.u32].flatten)
        (by simp [Codec.DataQueryDatumSpecification, Dis.DataQueryDatumSpecification.wire]) (SizedL.of_eq (n := _) (SizedL.append (SizedL.of (lay_unsigned_int _) (sized_unsigned_int _)) <|
        SizedL.nil) (by rfl)) (by decide)
        (WidthL.of_eq (WidthL.append (WidthL.one) <|
        WidthL.nil) (by rfl)), ?_⟩
    exact fun _ h => nomatch h
  appended := by
    refine List.forall_mem_cons.2 ⟨fun s o hd hw => ?_, ?_⟩
    · simp only [Codec.DataQueryDatumSpecification, Dis.DataQueryDatumSpecification.WireOk] at hd hw ⊢
      simp_all [Dis.DataQueryDatumSpecification.after]
    refine List.forall_mem_cons.2 ⟨fun s o hd hw => ?_, ?_⟩
    · simp only [Codec.DataQueryDatumSpecification, Dis.DataQueryDatumSpecification.WireOk] at hd hw ⊢
      simp_all [Dis.DataQueryDatumSpecification.after]
    exact fun _ h => nomatch h

theorem Codec.RadioIdentifier.verified : Codec.RadioIdentifier.Verified where
  rt s o _ := Dis.RadioIdentifier.rt s o
  loc s := Dis.RadioIdentifier.loc s
  lay o := Dis.RadioIdentifier.lay o
  sized o := Dis.RadioIdentifier.sized o
  ok_iff o := Dis.RadioIdentifier.ok_iff o
  canon _ h := Dis.RadioIdentifier.after_canon h
  post := Codec.post_plain (Dis.RadioIdentifier.post)
  only _ s := Dis.RadioIdentifier.only s
  counted := by
    intro c hc; cases hc
  appended := fun _ h => nomatch h

theorem Codec.RequestID.verified : Codec.RequestID.Verified where
  rt s o _ := Dis.RequestID.rt s o
  loc s := Dis.RequestID.loc s
  lay o := Dis.RequestID.lay o
  sized o := Dis.RequestID.sized o
  ok_iff o := Dis.RequestID.ok_iff o
  canon _ h := Dis.RequestID.after_canon h
  post := Codec.post_plain (Dis.RequestID.post)
  only _ s := Dis.RequestID.only s
  counted := by
    intro c hc; cases hc
  appended := fun _ h => nomatch h

theorem Codec.IFFData.verified : Codec.IFFData.Verified where
  rt s o h := Dis.IFFData.rt s o h
  loc s := Dis.IFFData.loc s
  lay o := Dis.IFFData.lay o
  sized o := Dis.IFFData.sized o
  ok_iff o := Dis.IFFData.ok_iff o
  canon _ h := Dis.IFFData.after_canon h
  post := Codec.post_live (Dis.IFFData.post)
  only _ s := Dis.IFFData.only s
  counted := by
    refine List.forall_mem_cons.2 ⟨fun o => CountField.At.unsigned (pre := [[.u32 o.recordType]].flatten)
        (post := [o.iffData.map Slot.u8].flatten)
        (by simp [Codec.IFFData, Dis.IFFData.wire]) (SizedL.of_eq (n := _) (SizedL.append (SizedL.of (lay_unsigned_int _) (sized_unsigned_int _)) <|
        SizedL.nil) (by rfl)) (by decide)
        (WidthL.of_eq (WidthL.append (WidthL.one) <|
        WidthL.nil) (by rfl)), ?_⟩
    exact fun _ h => nomatch h
  appended := by
    refine List.forall_mem_cons.2 ⟨fun s o hd hw => ?_, ?_⟩
    · simp only [Codec.IFFData, Dis.IFFData.Decodable, Dis.IFFData.WireOk] at hd hw ⊢
      simp_all [Dis.IFFData.after]
    exact fun _ h => nomatch h

theorem Codec.EntityType.verified : Codec.EntityType.Verified where
  rt s o _ := Dis.EntityType.rt s o
  loc s := Dis.EntityType.loc s
  lay o := Dis.EntityType.lay o
  sized o := Dis.EntityType.sized o
  ok_iff o := Dis.EntityType.ok_iff o
  canon _ h := Dis.EntityType.after_canon h
  post := Codec.post_plain (Dis.EntityType.post)
  only _ s := Dis.EntityType.only s
  counted := by
    intro c hc; cases hc
  appended := fun _ h => nomatch h

theorem Codec.MunitionDescriptor.verified : Codec.MunitionDescriptor.Verified where
  rt s o _ := Dis.MunitionDescriptor.rt s o
  loc s := Dis.MunitionDescriptor.loc s
  lay o := Dis.MunitionDescriptor.lay o
  sized o := Dis.MunitionDescriptor.sized o
  ok_iff o := Dis.MunitionDescriptor.ok_iff o
  canon _ h := Dis.MunitionDescriptor.after_canon h
  post := Codec.post_plain (Dis.MunitionDescriptor.post)
  only _ s := Dis.MunitionDescriptor.only s
  counted := by
    intro c hc; cases hc
  appended := fun _ h => nomatch h

theorem Codec.MinefieldSensorType.verified : Codec.MinefieldSensorType.Verified where
  rt s o _ := Dis.MinefieldSensorType.rt s o
  loc s := Dis.MinefieldSensorType.loc s
  lay o := Dis.MinefieldSensorType.lay o
  sized o := Dis.MinefieldSensorType.sized o
  ok_iff o := Dis.MinefieldSensorType.ok_iff o
  canon _ h := Dis.MinefieldSensorType.after_canon h
  post := Codec.post_plain (Dis.MinefieldSensorType.post)
  only _ s := Dis.MinefieldSensorType.only s
  counted := by
    intro c hc; cases hc
  appended := fun _ h => nomatch h

theorem Codec.GroupID.verified : Codec.GroupID.Verified where
  rt s o _ := Dis.GroupID.rt s o
  loc s := Dis.GroupID.loc s
  lay o := Dis.GroupID.lay o
  sized o := Dis.GroupID.sized o
  ok_iff o := Dis.GroupID.ok_iff o
  canon _ h := Dis.GroupID.after_canon h
  post := Codec.post_plain (Dis.GroupID.post)
  only _ s := Dis.GroupID.only s
  counted := by
    intro c hc; cases hc
  appended := fun _ h => nomatch h

theorem Codec.LayerHeader.verified : Codec.LayerHeader.Verified where
  rt s o _ := Dis.LayerHeader.rt s o
  loc s := Dis.LayerHeader.loc s
  lay o := Dis.LayerHeader.lay o
  sized o := Dis.LayerHeader.sized o
  ok_iff o := Dis.LayerHeader.ok_iff o
  canon _ h := Dis.LayerHeader.after_canon h
  post := Codec.post_plain (Dis.LayerHeader.post)
  only _ s := Dis.LayerHeader.only s
  counted := by
    intro c hc; cases hc
  appended := fun _ h => nomatch h

theorem Codec.UnsignedDISInteger.verified : Codec.UnsignedDISInteger.Verified where
  rt s o _ := Dis.UnsignedDISInteger.rt s o
  loc s := Dis.UnsignedDISInteger.loc s
  lay o := Dis.UnsignedDISInteger.lay o
  sized o := Dis.UnsignedDISInteger.sized o
  ok_iff o := Dis.UnsignedDISInteger.ok_iff o
  canon _ h := Dis.UnsignedDISInteger.after_canon h
  post := Codec.post_plain (Dis.UnsignedDISInteger.post)
  only _ s := Dis.UnsignedDISInteger.only s
  counted := by
    intro c hc; cases hc
  appended := fun _ h => nomatch h

theorem Codec.DeadReckoningParameters.verified : Codec.DeadReckoningParameters.Verified where
  rt s o _ := Dis.DeadReckoningParameters.rt s o
  loc s := Dis.DeadReckoningParameters.loc s
  lay o := Dis.DeadReckoningParameters.lay o
  sized o := Dis.DeadReckoningParameters.sized o
  ok_iff o := Dis.DeadReckoningParameters.ok_iff o
  canon _ h := Dis.DeadReckoningParameters.after_canon h
  post := Codec.post_plain (Dis.DeadReckoningParameters.post)
  only _ s := Dis.DeadReckoningParameters.only s
  counted := by
    intro c hc; cases hc
  appended := fun _ h => nomatch h

theorem Codec.ProtocolMode.verified : Codec.ProtocolMode.Verified where
  rt s o _ := Dis.ProtocolMode.rt s o
  loc s := Dis.ProtocolMode.loc s
  lay o := Dis.ProtocolMode.lay o
  sized o := Dis.ProtocolMode.sized o
  ok_iff o := Dis.ProtocolMode.ok_iff o
  canon _ h := Dis.ProtocolMode.after_canon h
  post := Codec.post_plain (Dis.ProtocolMode.post)
  only _ s := Dis.ProtocolMode.only s
  counted := by
    intro c hc; cases hc
  appended := fun _ h => nomatch h

theorem Codec.AngleDeception.verified : Codec.AngleDeception.Verified where
  rt s o _ := Dis.AngleDeception.rt s o
  loc s := Dis.AngleDeception.loc s
  lay o := Dis.AngleDeception.lay o
  sized o := Dis.AngleDeception.sized o
  ok_iff o := Dis.AngleDeception.ok_iff o
  canon _ h := Dis.AngleDeception.after_canon h
  post := Codec.post_plain (Dis.AngleDeception.post)
  only _ s := Dis.AngleDeception.only s
  counted := by
    intro c hc; cases hc
  appended := fun _ h => nomatch h

theorem Codec.EntityAssociation.verified : Codec.EntityAssociation.Verified where
  rt s o _ := Dis.EntityAssociation.rt s o
  loc s := Dis.EntityAssociation.loc s
  lay o := Dis.EntityAssociation.lay o
  sized o := Dis.EntityAssociation.sized o
  ok_iff o := Dis.EntityAssociation.ok_iff o
  canon _ h := Dis.EntityAssociation.after_canon h
  post := Codec.post_plain (Dis.EntityAssociation.post)
  only _ s := Dis.EntityAssociation.only s
  counted := by
    intro c hc; cases hc
  appended := fun _ h => nomatch h

theorem Codec.VectoringNozzleSystem.verified : Codec.VectoringNozzleSystem.Verified where
  rt s o _ := Dis.VectoringNozzleSystem.rt s o
  loc s := Dis.VectoringNozzleSystem.loc s
  lay o := Dis.VectoringNozzleSystem.lay o
  sized o := Dis.VectoringNozzleSystem.sized o
  ok_iff o := Dis.VectoringNozzleSystem.ok_iff o
  canon _ h := Dis.VectoringNozzleSystem.after_canon h
  post := Codec.post_plain (Dis.VectoringNozzleSystem.post)
  only _ s := Dis.VectoringNozzleSystem.only s
  counted := by
    intro c hc; cases hc
  appended := fun _ h => nomatch h

theorem Codec.FalseTargetsAttribute.verified : Codec.FalseTargetsAttribute.Verified where
  rt s o _ := Dis.FalseTargetsAttribute.rt s o
  loc s := Dis.FalseTargetsAttribute.loc s
  lay o := Dis.FalseTargetsAttribute.lay o
  sized o := Dis.FalseTargetsAttribute.sized o
  ok_iff o := Dis.FalseTargetsAttribute.ok_iff o
  canon _ h := Dis.FalseTargetsAttribute.after_canon h
  post := Codec.post_plain (Dis.FalseTargetsAttribute.post)
  only _ s := Dis.FalseTargetsAttribute.only s
  counted := by
    intro c hc; cases hc
  appended := fun _ h => nomatch h

theorem Codec.MinefieldIdentifier.verified : Codec.MinefieldIdentifier.Verified where
  rt s o _ := Dis.MinefieldIdentifier.rt s o
  loc s := Dis.MinefieldIdentifier.loc s
  lay o := Dis.MinefieldIdentifier.lay o
  sized o := Dis.MinefieldIdentifier.sized o
  ok_iff o := Dis.MinefieldIdentifier.ok_iff o
  canon _ h := Dis.MinefieldIdentifier.after_canon h
  post := Codec.post_plain (Dis.MinefieldIdentifier.post)
  only _ s := Dis.MinefieldIdentifier.only s
  counted := by
    intro c hc; cases hc
  appended := fun _ h => nomatch h

theorem Codec.RadioType.verified : Codec.RadioType.Verified where
  rt s o _ := Dis.RadioType.rt s o
  loc s := Dis.RadioType.loc s
  lay o := Dis.RadioType.lay o
  sized o := Dis.RadioType.sized o
  ok_iff o := Dis.RadioType.ok_iff o
  canon _ h := Dis.RadioType.after_canon h
  post := Codec.post_plain (Dis.RadioType.post)
  only _ s := Dis.RadioType.only s
  counted := by
    intro c hc; cases hc
  appended := fun _ h => nomatch h

theorem Codec.NamedLocationIdentification.verified : Codec.NamedLocationIdentification.Verified where
  rt s o _ := Dis.NamedLocationIdentification.rt s o
  loc s := Dis.NamedLocationIdentification.loc s
  lay o := Dis.NamedLocationIdentification.lay o
  sized o := Dis.NamedLocationIdentification.sized o
  ok_iff o := Dis.NamedLocationIdentification.ok_iff o
  canon _ h := Dis.NamedLocationIdentification.after_canon h
  post := Codec.post_plain (Dis.NamedLocationIdentification.post)
  only _ s := Dis.NamedLocationIdentification.only s
  counted := by
    intro c hc; cases hc
  appended := fun _ h => nomatch h

theorem Codec.IFFDataSpecification.verified : Codec.IFFDataSpecification.Verified where
  rt s o h := Dis.IFFDataSpecification.rt s o h
  loc s := Dis.IFFDataSpecification.loc s
  lay o := Dis.IFFDataSpecification.lay o
  sized o := Dis.IFFDataSpecification.sized o
  ok_iff o := Dis.IFFDataSpecification.ok_iff o
  canon _ h := Dis.IFFDataSpecification.after_canon h
  post := Codec.post_live (Dis.IFFDataSpecification.post)
  only _ s := Dis.IFFDataSpecification.only s
  counted := by
    refine List.forall_mem_cons.2 ⟨fun o => CountField.At.unsigned (pre := [].flatten)
        (post := [o.iffDataRecords.flatMap IFFData.wire].flatten)
        (by simp [Codec.IFFDataSpecification, Dis.IFFDataSpecification.wire]) (SizedL.of_eq (n := _) (SizedL.nil) (by rfl)) (by decide)
        (WidthL.of_eq (WidthL.nil) (by rfl)), ?_⟩
    exact fun _ h => nomatch h
  appended := by
    refine List.forall_mem_cons.2 ⟨fun s o hd hw => ?_, ?_⟩
    · simp only [Codec.IFFDataSpecification, Dis.IFFDataSpecification.Decodable, Dis.IFFDataSpecification.WireOk] at hd hw ⊢
      simp_all [Dis.IFFDataSpecification.after]
    exact fun _ h => nomatch h

theorem Codec.OwnershipStatus.verified : Codec.OwnershipStatus.Verified where
  rt s o _ := Dis.OwnershipStatus.rt s o
  loc s := Dis.OwnershipStatus.loc s
  lay o := Dis.OwnershipStatus.lay o
  sized o := Dis.OwnershipStatus.sized o
  ok_iff o := Dis.OwnershipStatus.ok_iff o
  canon _ h := Dis.OwnershipStatus.after_canon h
  post := Codec.post_plain (Dis.OwnershipStatus.post)
  only _ s := Dis.OwnershipStatus.only s
  counted := by
    intro c hc; cases hc
  appended := fun _ h => nomatch h

theorem Codec.AttachedParts.verified : Codec.AttachedParts.Verified where
  rt s o _ := Dis.AttachedParts.rt s o
  loc s := Dis.AttachedParts.loc s
  lay o := Dis.AttachedParts.lay o
  sized o := Dis.AttachedParts.sized o
  ok_iff o := Dis.AttachedParts.ok_iff o
  canon _ h := Dis.AttachedParts.after_canon h
  post := Codec.post_plain (Dis.AttachedParts.post)
  only _ s := Dis.AttachedParts.only s
  counted := by
    intro c hc; cases hc
  appended := fun _ h => nomatch h

theorem catalogRecords1_verified : ∀ c ∈ catalogRecords1, c.Verified := by
  intro c hc
  simp only [catalogRecords1, List.mem_cons, List.not_mem_nil, or_false] at hc
  rcases hc with rfl | rfl | rfl | rfl | rfl | rfl | rfl | rfl | rfl | rfl | rfl | rfl | rfl | rfl | rfl | rfl | rfl | rfl | rfl | rfl | rfl | rfl
  · exact Codec.DataQueryDatumSpecification.verified
  · exact Codec.RadioIdentifier.verified
  · exact Codec.RequestID.verified
  · exact Codec.IFFData.verified
  · exact Codec.EntityType.verified
  · exact Codec.MunitionDescriptor.verified
  · exact Codec.MinefieldSensorType.verified
  · exact Codec.GroupID.verified
  · exact Codec.LayerHeader.verified
  · exact Codec.UnsignedDISInteger.verified
  · exact Codec.DeadReckoningParameters.verified
  · exact Codec.ProtocolMode.verified
  · exact Codec.AngleDeception.verified
  · exact Codec.EntityAssociation.verified
  · exact Codec.VectoringNozzleSystem.verified
  · exact Codec.FalseTargetsAttribute.verified
  · exact Codec.MinefieldIdentifier.verified
  · exact Codec.RadioType.verified
  · exact Codec.NamedLocationIdentification.verified
  · exact Codec.IFFDataSpecification.verified
  · exact Codec.OwnershipStatus.verified
  · exact Codec.AttachedParts.verified

theorem Codec.Attribute.verified : Codec.Attribute.Verified where
  rt s o _ := Dis.Attribute.rt s o
  loc s := Dis.Attribute.loc s
  lay o := Dis.Attribute.lay o
  sized o := Dis.Attribute.sized o
  ok_iff o := Dis.Attribute.ok_iff o
  canon _ h := Dis.Attribute.after_canon h
  post := Codec.post_plain (Dis.Attribute.post)
  only _ s := Dis.Attribute.only s
  counted := by
    intro c hc; cases hc
  appended := fun _ h => nomatch h

theorem Codec.RecordQuerySpecification.verified : Codec.RecordQuerySpecification.Verified where
  rt s o _ := Dis.RecordQuerySpecification.rt s o
  loc s := Dis.RecordQuerySpecification.loc s
  lay o := Dis.RecordQuerySpecification.lay o
  sized o := Dis.RecordQuerySpecification.sized o
  ok_iff o := Dis.RecordQuerySpecification.ok_iff o
  canon _ h := Dis.RecordQuerySpecification.after_canon h
  post := Codec.post_plain (Dis.RecordQuerySpecification.post)
  only _ s := Dis.RecordQuerySpecification.only s
  counted := by
    refine List.forall_mem_cons.2 ⟨fun o => CountField.At.unsigned (pre := [].flatten)
        (post := [o.recordIDs.map Slot.u32].flatten)
        (by simp [Codec.RecordQuerySpecification, Dis.RecordQuerySpecification.wire]) (SizedL.of_eq (n := _) (SizedL.nil) (by rfl)) (by decide)
        (WidthL.of_eq (WidthL.nil) (by rfl)), ?_⟩
    exact fun _ h => nomatch h
  appended := by
    refine List.forall_mem_cons.2 ⟨fun s o hd hw => ?_, ?_⟩
    · simp only [Codec.RecordQuerySpecification, Dis.RecordQuerySpecification.WireOk] at hd hw ⊢
      simp_all [Dis.RecordQuerySpecification.after]
    exact fun _ h => nomatch h

theorem Codec.ArticulatedParts.verified : Codec.ArticulatedParts.Verified where
  rt s o _ := Dis.ArticulatedParts.rt s o
  loc s := Dis.ArticulatedParts.loc s
  lay o := Dis.ArticulatedParts.lay o
  sized o := Dis.ArticulatedParts.sized o
  ok_iff o := Dis.ArticulatedParts.ok_iff o
  canon _ h := Dis.ArticulatedParts.after_canon h
  post := Codec.post_plain (Dis.ArticulatedParts.post)
  only _ s := Dis.ArticulatedParts.only s
  counted := by
    intro c hc; cases hc
  appended := fun _ h => nomatch h

theorem Codec.ObjectType.verified : Codec.ObjectType.Verified where
  rt s o _ := Dis.ObjectType.rt s o
  loc s := Dis.ObjectType.loc s
  lay o := Dis.ObjectType.lay o
  sized o := Dis.ObjectType.sized o
  ok_iff o := Dis.ObjectType.ok_iff o
  canon _ h := Dis.ObjectType.after_canon h
  post := Codec.post_plain (Dis.ObjectType.post)
  only _ s := Dis.ObjectType.only s
  counted := by
    intro c hc; cases hc
  appended := fun _ h => nomatch h

theorem Codec.Association.verified : Codec.Association.Verified where
  rt s o _ := Dis.Association.rt s o
  loc s := Dis.Association.loc s
  lay o := Dis.Association.lay o
  sized o := Dis.Association.sized o
  ok_iff o := Dis.Association.ok_iff o
  canon _ h := Dis.Association.after_canon h
  post := Codec.post_plain (Dis.Association.post)
  only _ s := Dis.Association.only s
  counted := by
    intro c hc; cases hc
  appended := fun _ h => nomatch h

theorem Codec.RecordSpecificationElement.verified : Codec.RecordSpecificationElement.Verified where
  rt s o _ := Dis.RecordSpecificationElement.rt s o
  loc s := Dis.RecordSpecificationElement.loc s
  lay o := Dis.RecordSpecificationElement.lay o
  sized o := Dis.RecordSpecificationElement.sized o
  ok_iff o := Dis.RecordSpecificationElement.ok_iff o
  canon _ h := Dis.RecordSpecificationElement.after_canon h
  post := Codec.post_plain (Dis.RecordSpecificationElement.post)
  only _ s := Dis.RecordSpecificationElement.only s
  counted := by
    intro c hc; cases hc
  appended := fun _ h => nomatch h

theorem Codec.AntennaLocation.verified : Codec.AntennaLocation.Verified where
  rt s o _ := Dis.AntennaLocation.rt s o
  loc s := Dis.AntennaLocation.loc s
  lay o := Dis.AntennaLocation.lay o
  sized o := Dis.AntennaLocation.sized o
  ok_iff o := Dis.AntennaLocation.ok_iff o
  canon _ h := Dis.AntennaLocation.after_canon h
  post := Codec.post_plain (Dis.AntennaLocation.post)
  only _ s := Dis.AntennaLocation.only s
  counted := by
    intro c hc; cases hc
  appended := fun _ h => nomatch h

theorem Codec.ObjectIdentifier.verified : Codec.ObjectIdentifier.Verified where
  rt s o _ := Dis.ObjectIdentifier.rt s o
  loc s := Dis.ObjectIdentifier.loc s
  lay o := Dis.ObjectIdentifier.lay o
  sized o := Dis.ObjectIdentifier.sized o
  ok_iff o := Dis.ObjectIdentifier.ok_iff o
  canon _ h := Dis.ObjectIdentifier.after_canon h
  post := Codec.post_plain (Dis.ObjectIdentifier.post)
  only _ s := Dis.ObjectIdentifier.only s
  counted := by
    intro c hc; cases hc
  appended := fun _ h => nomatch h

theorem Codec.AggregateIdentifier.verified : Codec.AggregateIdentifier.Verified where
  rt s o _ := Dis.AggregateIdentifier.rt s o
  loc s := Dis.AggregateIdentifier.loc s
  lay o := Dis.AggregateIdentifier.lay o
  sized o := Dis.AggregateIdentifier.sized o
  ok_iff o := Dis.AggregateIdentifier.ok_iff o
  canon _ h := Dis.AggregateIdentifier.after_canon h
  post := Codec.post_plain (Dis.AggregateIdentifier.post)
  only _ s := Dis.AggregateIdentifier.only s
  counted := by
    intro c hc; cases hc
  appended := fun _ h => nomatch h

theorem Codec.FixedDatum.verified : Codec.FixedDatum.Verified where
  rt s o _ := Dis.FixedDatum.rt s o
  loc s := Dis.FixedDatum.loc s
  lay o := Dis.FixedDatum.lay o
  sized o := Dis.FixedDatum.sized o
  ok_iff o := Dis.FixedDatum.ok_iff o
  canon _ h := Dis.FixedDatum.after_canon h
  post := Codec.post_plain (Dis.FixedDatum.post)
  only _ s := Dis.FixedDatum.only s
  counted := by
    intro c hc; cases hc
  appended := fun _ h => nomatch h

theorem Codec.VariableParameter.verified : Codec.VariableParameter.Verified where
  rt s o _ := Dis.VariableParameter.rt s o
  loc s := Dis.VariableParameter.loc s
  lay o := Dis.VariableParameter.lay o
  sized o := Dis.VariableParameter.sized o
  ok_iff o := Dis.VariableParameter.ok_iff o
  canon _ h := Dis.VariableParameter.after_canon h
  post := Codec.post_plain (Dis.VariableParameter.post)
  only _ s := Dis.VariableParameter.only s
  counted := by
    intro c hc; cases hc
  appended := fun _ h => nomatch h

theorem Codec.ChangeOptions.verified : Codec.ChangeOptions.Verified where
  rt s o _ := Dis.ChangeOptions.rt s o
  loc s := Dis.ChangeOptions.loc s
  lay o := Dis.ChangeOptions.lay o
  sized o := Dis.ChangeOptions.sized o
  ok_iff o := Dis.ChangeOptions.ok_iff o
  canon _ h := Dis.ChangeOptions.after_canon h
  post := Codec.post_plain (Dis.ChangeOptions.post)
  only _ s := Dis.ChangeOptions.only s
  counted := by
    intro c hc; cases hc
  appended := fun _ h => nomatch h

theorem Codec.LiveSimulationAddress.verified : Codec.LiveSimulationAddress.Verified where
  rt s o _ := Dis.LiveSimulationAddress.rt s o
  loc s := Dis.LiveSimulationAddress.loc s
  lay o := Dis.LiveSimulationAddress.lay o
  sized o := Dis.LiveSimulationAddress.sized o
  ok_iff o := Dis.LiveSimulationAddress.ok_iff o
  canon _ h := Dis.LiveSimulationAddress.after_canon h
  post := Codec.post_plain (Dis.LiveSimulationAddress.post)
  only _ s := Dis.LiveSimulationAddress.only s
  counted := by
    intro c hc; cases hc
  appended := fun _ h => nomatch h

theorem Codec.EntityMarking.verified : Codec.EntityMarking.Verified where
  rt s o _ := Dis.EntityMarking.rt s o
  loc s := Dis.EntityMarking.loc s
  lay o := Dis.EntityMarking.lay o
  sized o := Dis.EntityMarking.sized o
  ok_iff o := Dis.EntityMarking.ok_iff o
  canon _ h := Dis.EntityMarking.after_canon h
  post := Codec.post_plain (Dis.EntityMarking.post)
  only _ s := Dis.EntityMarking.only s
  counted := by
    intro c hc; cases hc
  appended := fun _ h => nomatch h

theorem Codec.UAFundamentalParameter.verified : Codec.UAFundamentalParameter.Verified where
  rt s o _ := Dis.UAFundamentalParameter.rt s o
  loc s := Dis.UAFundamentalParameter.loc s
  lay o := Dis.UAFundamentalParameter.lay o
  sized o := Dis.UAFundamentalParameter.sized o
  ok_iff o := Dis.UAFundamentalParameter.ok_iff o
  canon _ h := Dis.UAFundamentalParameter.after_canon h
  post := Codec.post_plain (Dis.UAFundamentalParameter.post)
  only _ s := Dis.UAFundamentalParameter.only s
  counted := by
    intro c hc; cases hc
  appended := fun _ h => nomatch h

theorem Codec.ExplosionDescriptor.verified : Codec.ExplosionDescriptor.Verified where
  rt s o _ := Dis.ExplosionDescriptor.rt s o
  loc s := Dis.ExplosionDescriptor.loc s
  lay o := Dis.ExplosionDescriptor.lay o
  sized o := Dis.ExplosionDescriptor.sized o
  ok_iff o := Dis.ExplosionDescriptor.ok_iff o
  canon _ h := Dis.ExplosionDescriptor.after_canon h
  post := Codec.post_plain (Dis.ExplosionDescriptor.post)
  only _ s := Dis.ExplosionDescriptor.only s
  counted := by
    intro c hc; cases hc
  appended := fun _ h => nomatch h

theorem Codec.ClockTime.verified : Codec.ClockTime.Verified where
  rt s o _ := Dis.ClockTime.rt s o
  loc s := Dis.ClockTime.loc s
  lay o := Dis.ClockTime.lay o
  sized o := Dis.ClockTime.sized o
  ok_iff o := Dis.ClockTime.ok_iff o
  canon _ h := Dis.ClockTime.after_canon h
  post := Codec.post_plain (Dis.ClockTime.post)
  only _ s := Dis.ClockTime.only s
  counted := by
    intro c hc; cases hc
  appended := fun _ h => nomatch h

theorem Codec.SecondaryOperationalData.verified : Codec.SecondaryOperationalData.Verified where
  rt s o _ := Dis.SecondaryOperationalData.rt s o
  loc s := Dis.SecondaryOperationalData.loc s
  lay o := Dis.SecondaryOperationalData.lay o
  sized o := Dis.SecondaryOperationalData.sized o
  ok_iff o := Dis.SecondaryOperationalData.ok_iff o
  canon _ h := Dis.SecondaryOperationalData.after_canon h
  post := Codec.post_plain (Dis.SecondaryOperationalData.post)
  only _ s := Dis.SecondaryOperationalData.only s
  counted := by
    intro c hc; cases hc
  appended := fun _ h => nomatch h

theorem Codec.EnvironmentType.verified : Codec.EnvironmentType.Verified where
  rt s o _ := Dis.EnvironmentType.rt s o
  loc s := Dis.EnvironmentType.loc s
  lay o := Dis.EnvironmentType.lay o
  sized o := Dis.EnvironmentType.sized o
  ok_iff o := Dis.EnvironmentType.ok_iff o
  canon _ h := Dis.EnvironmentType.after_canon h
  post := Codec.post_plain (Dis.EnvironmentType.post)
  only _ s := Dis.EnvironmentType.only s
  counted := by
    intro c hc; cases hc
  appended := fun _ h => nomatch h

theorem Codec.TotalRecordSets.verified : Codec.TotalRecordSets.Verified where
  rt s o _ := Dis.TotalRecordSets.rt s o
  loc s := Dis.TotalRecordSets.loc s
  lay o := Dis.TotalRecordSets.lay o
  sized o := Dis.TotalRecordSets.sized o
  ok_iff o := Dis.TotalRecordSets.ok_iff o
  canon _ h := Dis.TotalRecordSets.after_canon h
  post := Codec.post_plain (Dis.TotalRecordSets.post)
  only _ s := Dis.TotalRecordSets.only s
  counted := by
    intro c hc; cases hc
  appended := fun _ h => nomatch h

theorem Codec.MineEntityIdentifier.verified : Codec.MineEntityIdentifier.Verified where
  rt s o _ := Dis.MineEntityIdentifier.rt s o
  loc s := Dis.MineEntityIdentifier.loc s
  lay o := Dis.MineEntityIdentifier.lay o
  sized o := Dis.MineEntityIdentifier.sized o
  ok_iff o := Dis.MineEntityIdentifier.ok_iff o
  canon _ h := Dis.MineEntityIdentifier.after_canon h
  post := Codec.post_plain (Dis.MineEntityIdentifier.post)
  only _ s := Dis.MineEntityIdentifier.only s
  counted := by
    intro c hc; cases hc
  appended := fun _ h => nomatch h

theorem Codec.Relationship.verified : Codec.Relationship.Verified where
  rt s o _ := Dis.Relationship.rt s o
  loc s := Dis.Relationship.loc s
  lay o := Dis.Relationship.lay o
  sized o := Dis.Relationship.sized o
  ok_iff o := Dis.Relationship.ok_iff o
  canon _ h := Dis.Relationship.after_canon h
  post := Codec.post_plain (Dis.Relationship.post)
  only _ s := Dis.Relationship.only s
  counted := by
    intro c hc; cases hc
  appended := fun _ h => nomatch h

theorem catalogRecords2_verified : ∀ c ∈ catalogRecords2, c.Verified := by
  intro c hc
  simp only [catalogRecords2, List.mem_cons, List.not_mem_nil, or_false] at hc
  rcases hc with rfl | rfl | rfl | rfl | rfl | rfl | rfl | rfl | rfl | rfl | rfl | rfl | rfl | rfl | rfl | rfl | rfl | rfl | rfl | rfl | rfl | rfl
  · exact Codec.Attribute.verified
  · exact Codec.RecordQuerySpecification.verified
  · exact Codec.ArticulatedParts.verified
  · exact Codec.ObjectType.verified
  · exact Codec.Association.verified
  · exact Codec.RecordSpecificationElement.verified
  · exact Codec.AntennaLocation.verified
  · exact Codec.ObjectIdentifier.verified
  · exact Codec.AggregateIdentifier.verified
  · exact Codec.FixedDatum.verified
  · exact Codec.VariableParameter.verified
  · exact Codec.ChangeOptions.verified
  · exact Codec.LiveSimulationAddress.verified
  · exact Codec.EntityMarking.verified
  · exact Codec.UAFundamentalParameter.verified
  · exact Codec.ExplosionDescriptor.verified
  · exact Codec.ClockTime.verified
  · exact Codec.SecondaryOperationalData.verified
  · exact Codec.EnvironmentType.verified
  · exact Codec.TotalRecordSets.verified
  · exact Codec.MineEntityIdentifier.verified
  · exact Codec.Relationship.verified

theorem Codec.EEFundamentalParameterData.verified : Codec.EEFundamentalParameterData.Verified where
  rt s o _ := Dis.EEFundamentalParameterData.rt s o
  loc s := Dis.EEFundamentalParameterData.loc s
  lay o := Dis.EEFundamentalParameterData.lay o
  sized o := Dis.EEFundamentalParameterData.sized o
  ok_iff o := Dis.EEFundamentalParameterData.ok_iff o
  canon _ h := Dis.EEFundamentalParameterData.after_canon h
  post := Codec.post_plain (Dis.EEFundamentalParameterData.post)
  only _ s := Dis.EEFundamentalParameterData.only s
  counted := by
    intro c hc; cases hc
  appended := fun _ h => nomatch h

theorem Codec.JammingTechnique.verified : Codec.JammingTechnique.Verified where
  rt s o _ := Dis.JammingTechnique.rt s o
  loc s := Dis.JammingTechnique.loc s
  lay o := Dis.JammingTechnique.lay o
  sized o := Dis.JammingTechnique.sized o
  ok_iff o := Dis.JammingTechnique.ok_iff o
  canon _ h := Dis.JammingTechnique.after_canon h
  post := Codec.post_plain (Dis.JammingTechnique.post)
  only _ s := Dis.JammingTechnique.only s
  counted := by
    intro c hc; cases hc
  appended := fun _ h => nomatch h

theorem Codec.VariableDatum.verified : Codec.VariableDatum.Verified where
  rt s o _ := Dis.VariableDatum.rt s o
  loc s := Dis.VariableDatum.loc s
  lay o := Dis.VariableDatum.lay o
  sized o := Dis.VariableDatum.sized o
  ok_iff o := Dis.VariableDatum.ok_iff o
  canon _ h := Dis.VariableDatum.after_canon h
  post := Codec.post_lossy (Dis.VariableDatum.post)
  only _ s := Dis.VariableDatum.only s
  counted := by
    intro c hc; cases hc
  appended := fun _ h => nomatch h

theorem Codec.DatumSpecification.verified : Codec.DatumSpecification.Verified where
  rt s o _ := Dis.DatumSpecification.rt s o
  loc s := Dis.DatumSpecification.loc s
  lay o := Dis.DatumSpecification.lay o
  sized o := Dis.DatumSpecification.sized o
  ok_iff o := Dis.DatumSpecification.ok_iff o
  canon _ h := Dis.DatumSpecification.after_canon h
  post := Codec.post_lossy (Dis.DatumSpecification.post)
  only _ s := Dis.DatumSpecification.only s
  counted := by
    refine List.forall_mem_cons.2 ⟨fun o => CountField.At.unsigned (pre := [].flatten)
        (post := [[.u32 (o.variableDatumRecords.length : Int)], o.fixedDatumRecords.flatMap FixedDatum.wire, o.variableDatumRecords.flatMap VariableDatum.wire].flatten)
        (by simp [Codec.DatumSpecification, Dis.DatumSpecification.wire]) (SizedL.of_eq (n := _) (SizedL.nil) (by rfl)) (by decide)
        (WidthL.of_eq (WidthL.nil) (by rfl)), ?_⟩
    refine List.forall_mem_cons.2 ⟨fun o => CountField.At.unsigned (pre := [[.u32 (o.fixedDatumRecords.length : Int)]].flatten)
        (post := [o.fixedDatumRecords.flatMap FixedDatum.wire, o.variableDatumRecords.flatMap VariableDatum.wire].flatten)
        (by simp [Codec.DatumSpecification, Dis.DatumSpecification.wire]) (SizedL.of_eq (n := _) (SizedL.append (SizedL.of (lay_unsigned_int _) (sized_unsigned_int _)) <|
        SizedL.nil) (by rfl)) (by decide)
        (WidthL.of_eq (WidthL.append (WidthL.one) <|
        WidthL.nil) (by rfl)), ?_⟩
    exact fun _ h => nomatch h
  appended := by
    refine List.forall_mem_cons.2 ⟨fun s o hd hw => ?_, ?_⟩
    · simp only [Codec.DatumSpecification, Dis.DatumSpecification.WireOk] at hd hw ⊢
      simp_all [Dis.DatumSpecification.after]
    refine List.forall_mem_cons.2 ⟨fun s o hd hw => ?_, ?_⟩
    · simp only [Codec.DatumSpecification, Dis.DatumSpecification.WireOk] at hd hw ⊢
      simp_all [Dis.DatumSpecification.after]
    exact fun _ h => nomatch h

theorem Codec.Expendable.verified : Codec.Expendable.Verified where
  rt s o _ := Dis.Expendable.rt s o
  loc s := Dis.Expendable.loc s
  lay o := Dis.Expendable.lay o
  sized o := Dis.Expendable.sized o
  ok_iff o := Dis.Expendable.ok_iff o
  canon _ h := Dis.Expendable.after_canon h
  post := Codec.post_plain (Dis.Expendable.post)
  only _ s := Dis.Expendable.only s
  counted := by
    intro c hc; cases hc
  appended := fun _ h => nomatch h

theorem Codec.CommunicationsNodeID.verified : Codec.CommunicationsNodeID.Verified where
  rt s o _ := Dis.CommunicationsNodeID.rt s o
  loc s := Dis.CommunicationsNodeID.loc s
  lay o := Dis.CommunicationsNodeID.lay o
  sized o := Dis.CommunicationsNodeID.sized o
  ok_iff o := Dis.CommunicationsNodeID.ok_iff o
  canon _ h := Dis.CommunicationsNodeID.after_canon h
  post := Codec.post_plain (Dis.CommunicationsNodeID.post)
  only _ s := Dis.CommunicationsNodeID.only s
  counted := by
    intro c hc; cases hc
  appended := fun _ h => nomatch h

theorem Codec.IOCommunicationsNode.verified : Codec.IOCommunicationsNode.Verified where
  rt s o _ := Dis.IOCommunicationsNode.rt s o
  loc s := Dis.IOCommunicationsNode.loc s
  lay o := Dis.IOCommunicationsNode.lay o
  sized o := Dis.IOCommunicationsNode.sized o
  ok_iff o := Dis.IOCommunicationsNode.ok_iff o
  canon _ h := Dis.IOCommunicationsNode.after_canon h
  post := Codec.post_plain (Dis.IOCommunicationsNode.post)
  only _ s := Dis.IOCommunicationsNode.only s
  counted := by
    intro c hc; cases hc
  appended := fun _ h => nomatch h

theorem Codec.LinearSegmentParameter.verified : Codec.LinearSegmentParameter.Verified where
  rt s o _ := Dis.LinearSegmentParameter.rt s o
  loc s := Dis.LinearSegmentParameter.loc s
  lay o := Dis.LinearSegmentParameter.lay o
  sized o := Dis.LinearSegmentParameter.sized o
  ok_iff o := Dis.LinearSegmentParameter.ok_iff o
  canon _ h := Dis.LinearSegmentParameter.after_canon h
  post := Codec.post_plain (Dis.LinearSegmentParameter.post)
  only _ s := Dis.LinearSegmentParameter.only s
  counted := by
    intro c hc; cases hc
  appended := fun _ h => nomatch h

theorem Codec.SystemIdentifier.verified : Codec.SystemIdentifier.Verified where
  rt s o _ := Dis.SystemIdentifier.rt s o
  loc s := Dis.SystemIdentifier.loc s
  lay o := Dis.SystemIdentifier.lay o
  sized o := Dis.SystemIdentifier.sized o
  ok_iff o := Dis.SystemIdentifier.ok_iff o
  canon _ h := Dis.SystemIdentifier.after_canon h
  post := Codec.post_plain (Dis.SystemIdentifier.post)
  only _ s := Dis.SystemIdentifier.only s
  counted := by
    intro c hc; cases hc
  appended := fun _ h => nomatch h

theorem Codec.TrackJamData.verified : Codec.TrackJamData.Verified where
  rt s o _ := Dis.TrackJamData.rt s o
  loc s := Dis.TrackJamData.loc s
  lay o := Dis.TrackJamData.lay o
  sized o := Dis.TrackJamData.sized o
  ok_iff o := Dis.TrackJamData.ok_iff o
  canon _ h := Dis.TrackJamData.after_canon h
  post := Codec.post_plain (Dis.TrackJamData.post)
  only _ s := Dis.TrackJamData.only s
  counted := by
    intro c hc; cases hc
  appended := fun _ h => nomatch h

theorem Codec.AggregateType.verified : Codec.AggregateType.Verified where
  rt s o _ := Dis.AggregateType.rt s o
  loc s := Dis.AggregateType.loc s
  lay o := Dis.AggregateType.lay o
  sized o := Dis.AggregateType.sized o
  ok_iff o := Dis.AggregateType.ok_iff o
  canon _ h := Dis.AggregateType.after_canon h
  post := Codec.post_plain (Dis.AggregateType.post)
  only _ s := Dis.AggregateType.only s
  counted := by
    intro c hc; cases hc
  appended := fun _ h => nomatch h

theorem Codec.SimulationIdentifier.verified : Codec.SimulationIdentifier.Verified where
  rt s o _ := Dis.SimulationIdentifier.rt s o
  loc s := Dis.SimulationIdentifier.loc s
  lay o := Dis.SimulationIdentifier.lay o
  sized o := Dis.SimulationIdentifier.sized o
  ok_iff o := Dis.SimulationIdentifier.ok_iff o
  canon _ h := Dis.SimulationIdentifier.after_canon h
  post := Codec.post_plain (Dis.SimulationIdentifier.post)
  only _ s := Dis.SimulationIdentifier.only s
  counted := by
    intro c hc; cases hc
  appended := fun _ h => nomatch h

theorem Codec.PduHeader.verified : Codec.PduHeader.Verified where
  rt s o _ := Dis.PduHeader.rt s o
  loc s := Dis.PduHeader.loc s
  lay o := Dis.PduHeader.lay o
  sized o := Dis.PduHeader.sized o
  ok_iff o := Dis.PduHeader.ok_iff o
  canon _ h := Dis.PduHeader.after_canon h
  post := Codec.post_plain (Dis.PduHeader.post)
  only _ s := Dis.PduHeader.only s
  counted := by
    intro c hc; cases hc
  appended := fun _ h => nomatch h

theorem Codec.SimulationManagementPduHeader.verified : Codec.SimulationManagementPduHeader.Verified where
  rt s o _ := Dis.SimulationManagementPduHeader.rt s o
  loc s := Dis.SimulationManagementPduHeader.loc s
  lay o := Dis.SimulationManagementPduHeader.lay o
  sized o := Dis.SimulationManagementPduHeader.sized o
  ok_iff o := Dis.SimulationManagementPduHeader.ok_iff o
  canon _ h := Dis.SimulationManagementPduHeader.after_canon h
  post := Codec.post_plain (Dis.SimulationManagementPduHeader.post)
  only _ s := Dis.SimulationManagementPduHeader.only s
  counted := by
    intro c hc; cases hc
  appended := fun _ h => nomatch h

theorem Codec.BeamData.verified : Codec.BeamData.Verified where
  rt s o _ := Dis.BeamData.rt s o
  loc s := Dis.BeamData.loc s
  lay o := Dis.BeamData.lay o
  sized o := Dis.BeamData.sized o
  ok_iff o := Dis.BeamData.ok_iff o
  canon _ h := Dis.BeamData.after_canon h
  post := Codec.post_plain (Dis.BeamData.post)
  only _ s := Dis.BeamData.only s
  counted := by
    intro c hc; cases hc
  appended := fun _ h => nomatch h

theorem Codec.EngineFuel.verified : Codec.EngineFuel.Verified where
  rt s o _ := Dis.EngineFuel.rt s o
  loc s := Dis.EngineFuel.loc s
  lay o := Dis.EngineFuel.lay o
  sized o := Dis.EngineFuel.sized o
  ok_iff o := Dis.EngineFuel.ok_iff o
  canon _ h := Dis.EngineFuel.after_canon h
  post := Codec.post_plain (Dis.EngineFuel.post)
  only _ s := Dis.EngineFuel.only s
  counted := by
    intro c hc; cases hc
  appended := fun _ h => nomatch h

theorem Codec.IOEffect.verified : Codec.IOEffect.Verified where
  rt s o _ := Dis.IOEffect.rt s o
  loc s := Dis.IOEffect.loc s
  lay o := Dis.IOEffect.lay o
  sized o := Dis.IOEffect.sized o
  ok_iff o := Dis.IOEffect.ok_iff o
  canon _ h := Dis.IOEffect.after_canon h
  post := Codec.post_plain (Dis.IOEffect.post)
  only _ s := Dis.IOEffect.only s
  counted := by
    intro c hc; cases hc
  appended := fun _ h => nomatch h

theorem Codec.GridAxisDescriptorVariable.verified : Codec.GridAxisDescriptorVariable.Verified where
  rt s o _ := Dis.GridAxisDescriptorVariable.rt s o
  loc s := Dis.GridAxisDescriptorVariable.loc s
  lay o := Dis.GridAxisDescriptorVariable.lay o
  sized o := Dis.GridAxisDescriptorVariable.sized o
  ok_iff o := Dis.GridAxisDescriptorVariable.ok_iff o
  canon _ h := Dis.GridAxisDescriptorVariable.after_canon h
  post := Codec.post_plain (Dis.GridAxisDescriptorVariable.post)
  only h := nomatch h
  counted := by
    refine List.forall_mem_cons.2 ⟨fun o => CountField.At.unsigned (pre := [[.f64 o.domainInitialXi], [.f64 o.domainFinalXi], [.u16 o.domainPointsXi], [.u8 o.interleafFactor], [.u8 o.axisType]].flatten)
        (post := [[.u16 o.initialIndex], [.f64 o.coordinateScaleXi], [.f64 o.coordinateOffsetXi], o.xiValues.map fun _ => .fail .attributeError].flatten)
        (by simp [Codec.GridAxisDescriptorVariable, Dis.GridAxisDescriptorVariable.wire]) (SizedL.of_eq (n := _) (SizedL.append (SizedL.of (lay_double _) (sized_double _)) <|
        SizedL.append (SizedL.of (lay_double _) (sized_double _)) <|
        SizedL.append (SizedL.of (lay_unsigned_short _) (sized_unsigned_short _)) <|
        SizedL.append (SizedL.of (lay_unsigned_byte _) (sized_unsigned_byte _)) <|
        SizedL.append (SizedL.of (lay_unsigned_byte _) (sized_unsigned_byte _)) <|
        SizedL.nil) (by rfl)) (by decide)
        (WidthL.of_eq (WidthL.append (WidthL.one) <|
        WidthL.append (WidthL.one) <|
        WidthL.append (WidthL.one) <|
        WidthL.append (WidthL.one) <|
        WidthL.append (WidthL.one) <|
        WidthL.nil) (by rfl)), ?_⟩
    exact fun _ h => nomatch h
  appended := by
    refine List.forall_mem_cons.2 ⟨fun s o hd hw => ?_, ?_⟩
    · simp only [Codec.GridAxisDescriptorVariable, Dis.GridAxisDescriptorVariable.WireOk] at hd hw ⊢
      simp_all [Dis.GridAxisDescriptorVariable.after]
    exact fun _ h => nomatch h

theorem Codec.SupplyQuantity.verified : Codec.SupplyQuantity.Verified where
  rt s o _ := Dis.SupplyQuantity.rt s o
  loc s := Dis.SupplyQuantity.loc s
  lay o := Dis.SupplyQuantity.lay o
  sized o := Dis.SupplyQuantity.sized o
  ok_iff o := Dis.SupplyQuantity.ok_iff o
  canon _ h := Dis.SupplyQuantity.after_canon h
  post := Codec.post_plain (Dis.SupplyQuantity.post)
  only _ s := Dis.SupplyQuantity.only s
  counted := by
    intro c hc; cases hc
  appended := fun _ h => nomatch h

theorem Codec.SilentEntitySystem.verified : Codec.SilentEntitySystem.Verified where
  rt s o _ := Dis.SilentEntitySystem.rt s o
  loc s := Dis.SilentEntitySystem.loc s
  lay o := Dis.SilentEntitySystem.lay o
  sized o := Dis.SilentEntitySystem.sized o
  ok_iff o := Dis.SilentEntitySystem.ok_iff o
  canon _ h := Dis.SilentEntitySystem.after_canon h
  post := Codec.post_plain (Dis.SilentEntitySystem.post)
  only h := nomatch h
  counted := by
    refine List.forall_mem_cons.2 ⟨fun o => CountField.At.unsigned (pre := [[.u16 o.numberOfEntities]].flatten)
        (post := [EntityType.wire o.entityType, o.appearanceRecordList.map fun _ => .fail .attributeError].flatten)
        (by simp [Codec.SilentEntitySystem, Dis.SilentEntitySystem.wire]) (SizedL.of_eq (n := _) (SizedL.append (SizedL.of (lay_unsigned_short _) (sized_unsigned_short _)) <|
        SizedL.nil) (by rfl)) (by decide)
        (WidthL.of_eq (WidthL.append (WidthL.one) <|
        WidthL.nil) (by rfl)), ?_⟩
    exact fun _ h => nomatch h
  appended := by
    refine List.forall_mem_cons.2 ⟨fun s o hd hw => ?_, ?_⟩
    · simp only [Codec.SilentEntitySystem, Dis.SilentEntitySystem.WireOk] at hd hw ⊢
      simp_all [Dis.SilentEntitySystem.after]
    exact fun _ h => nomatch h

theorem Codec.SilentAggregateSystem.verified : Codec.SilentAggregateSystem.Verified where
  rt s o _ := Dis.SilentAggregateSystem.rt s o
  loc s := Dis.SilentAggregateSystem.loc s
  lay o := Dis.SilentAggregateSystem.lay o
  sized o := Dis.SilentAggregateSystem.sized o
  ok_iff o := Dis.SilentAggregateSystem.ok_iff o
  canon _ h := Dis.SilentAggregateSystem.after_canon h
  post := Codec.post_live (Dis.SilentAggregateSystem.post)
  only _ s := Dis.SilentAggregateSystem.only s
  counted := by
    intro c hc; cases hc
  appended := fun _ h => nomatch h

theorem Codec.BlankingSector.verified : Codec.BlankingSector.Verified where
  rt s o _ := Dis.BlankingSector.rt s o
  loc s := Dis.BlankingSector.loc s
  lay o := Dis.BlankingSector.lay o
  sized o := Dis.BlankingSector.sized o
  ok_iff o := Dis.BlankingSector.ok_iff o
  canon _ h := Dis.BlankingSector.after_canon h
  post := Codec.post_plain (Dis.BlankingSector.post)
  only _ s := Dis.BlankingSector.only s
  counted := by
    intro c hc; cases hc
  appended := fun _ h => nomatch h

theorem catalogRecords3_verified : ∀ c ∈ catalogRecords3, c.Verified := by
  intro c hc
  simp only [catalogRecords3, List.mem_cons, List.not_mem_nil, or_false] at hc
  rcases hc with rfl | rfl | rfl | rfl | rfl | rfl | rfl | rfl | rfl | rfl | rfl | rfl | rfl | rfl | rfl | rfl | rfl | rfl | rfl | rfl | rfl | rfl
  · exact Codec.EEFundamentalParameterData.verified
  · exact Codec.JammingTechnique.verified
  · exact Codec.VariableDatum.verified
  · exact Codec.DatumSpecification.verified
  · exact Codec.Expendable.verified
  · exact Codec.CommunicationsNodeID.verified
  · exact Codec.IOCommunicationsNode.verified
  · exact Codec.LinearSegmentParameter.verified
  · exact Codec.SystemIdentifier.verified
  · exact Codec.TrackJamData.verified
  · exact Codec.AggregateType.verified
  · exact Codec.SimulationIdentifier.verified
  · exact Codec.PduHeader.verified
  · exact Codec.SimulationManagementPduHeader.verified
  · exact Codec.BeamData.verified
  · exact Codec.EngineFuel.verified
  · exact Codec.IOEffect.verified
  · exact Codec.GridAxisDescriptorVariable.verified
  · exact Codec.SupplyQuantity.verified
  · exact Codec.SilentEntitySystem.verified
  · exact Codec.SilentAggregateSystem.verified
  · exact Codec.BlankingSector.verified

theorem Codec.LaunchedMunitionRecord.verified : Codec.LaunchedMunitionRecord.Verified where
  rt s o _ := Dis.LaunchedMunitionRecord.rt s o
  loc s := Dis.LaunchedMunitionRecord.loc s
  lay o := Dis.LaunchedMunitionRecord.lay o
  sized o := Dis.LaunchedMunitionRecord.sized o
  ok_iff o := Dis.LaunchedMunitionRecord.ok_iff o
  canon _ h := Dis.LaunchedMunitionRecord.after_canon h
  post := Codec.post_plain (Dis.LaunchedMunitionRecord.post)
  only _ s := Dis.LaunchedMunitionRecord.only s
  counted := by
    intro c hc; cases hc
  appended := fun _ h => nomatch h

theorem Codec.IFFFundamentalParameterData.verified : Codec.IFFFundamentalParameterData.Verified where
  rt s o _ := Dis.IFFFundamentalParameterData.rt s o
  loc s := Dis.IFFFundamentalParameterData.loc s
  lay o := Dis.IFFFundamentalParameterData.lay o
  sized o := Dis.IFFFundamentalParameterData.sized o
  ok_iff o := Dis.IFFFundamentalParameterData.ok_iff o
  canon _ h := Dis.IFFFundamentalParameterData.after_canon h
  post := Codec.post_plain (Dis.IFFFundamentalParameterData.post)
  only _ s := Dis.IFFFundamentalParameterData.only s
  counted := by
    intro c hc; cases hc
  appended := fun _ h => nomatch h

theorem Codec.FundamentalOperationalData.verified : Codec.FundamentalOperationalData.Verified where
  rt s o _ := Dis.FundamentalOperationalData.rt s o
  loc s := Dis.FundamentalOperationalData.loc s
  lay o := Dis.FundamentalOperationalData.lay o
  sized o := Dis.FundamentalOperationalData.sized o
  ok_iff o := Dis.FundamentalOperationalData.ok_iff o
  canon _ h := Dis.FundamentalOperationalData.after_canon h
  post := Codec.post_plain (Dis.FundamentalOperationalData.post)
  only _ s := Dis.FundamentalOperationalData.only s
  counted := by
    intro c hc; cases hc
  appended := fun _ h => nomatch h

theorem Codec.IntercomCommunicationsParameters.verified : Codec.IntercomCommunicationsParameters.Verified where
  rt s o _ := Dis.IntercomCommunicationsParameters.rt s o
  loc s := Dis.IntercomCommunicationsParameters.loc s
  lay o := Dis.IntercomCommunicationsParameters.lay o
  sized o := Dis.IntercomCommunicationsParameters.sized o
  ok_iff o := Dis.IntercomCommunicationsParameters.ok_iff o
  canon _ h := Dis.IntercomCommunicationsParameters.after_canon h
  post := Codec.post_plain (Dis.IntercomCommunicationsParameters.post)
  only _ s := Dis.IntercomCommunicationsParameters.only s
  counted := by
    intro c hc; cases hc
  appended := fun _ h => nomatch h

theorem Codec.Munition.verified : Codec.Munition.Verified where
  rt s o _ := Dis.Munition.rt s o
  loc s := Dis.Munition.loc s
  lay o := Dis.Munition.lay o
  sized o := Dis.Munition.sized o
  ok_iff o := Dis.Munition.ok_iff o
  canon _ h := Dis.Munition.after_canon h
  post := Codec.post_plain (Dis.Munition.post)
  only _ s := Dis.Munition.only s
  counted := by
    intro c hc; cases hc
  appended := fun _ h => nomatch h

theorem Codec.StandardVariableSpecification.verified : Codec.StandardVariableSpecification.Verified where
  rt s o _ := Dis.StandardVariableSpecification.rt s o
  loc s := Dis.StandardVariableSpecification.loc s
  lay o := Dis.StandardVariableSpecification.lay o
  sized o := Dis.StandardVariableSpecification.sized o
  ok_iff o := Dis.StandardVariableSpecification.ok_iff o
  canon _ h := Dis.StandardVariableSpecification.after_canon h
  post := Codec.post_plain (Dis.StandardVariableSpecification.post)
  only h := nomatch h
  counted := by
    refine List.forall_mem_cons.2 ⟨fun o => CountField.At.unsigned (pre := [].flatten)
        (post := [o.standardVariables.map fun _ => .fail .attributeError].flatten)
        (by simp [Codec.StandardVariableSpecification, Dis.StandardVariableSpecification.wire]) (SizedL.of_eq (n := _) (SizedL.nil) (by rfl)) (by decide)
        (WidthL.of_eq (WidthL.nil) (by rfl)), ?_⟩
    exact fun _ h => nomatch h
  appended := by
    refine List.forall_mem_cons.2 ⟨fun s o hd hw => ?_, ?_⟩
    · simp only [Codec.StandardVariableSpecification, Dis.StandardVariableSpecification.WireOk] at hd hw ⊢
      simp_all [Dis.StandardVariableSpecification.after]
    exact fun _ h => nomatch h

theorem Codec.Vector2Float.verified : Codec.Vector2Float.Verified where
  rt s o _ := Dis.Vector2Float.rt s o
  loc s := Dis.Vector2Float.loc s
  lay o := Dis.Vector2Float.lay o
  sized o := Dis.Vector2Float.sized o
  ok_iff o := Dis.Vector2Float.ok_iff o
  canon _ h := Dis.Vector2Float.after_canon h
  post := Codec.post_plain (Dis.Vector2Float.post)
  only _ s := Dis.Vector2Float.only s
  counted := by
    intro c hc; cases hc
  appended := fun _ h => nomatch h

theorem Codec.Environment.verified : Codec.Environment.Verified where
  rt s o _ := Dis.Environment.rt s o
  loc s := Dis.Environment.loc s
  lay o := Dis.Environment.lay o
  sized o := Dis.Environment.sized o
  ok_iff o := Dis.Environment.ok_iff o
  canon _ h := Dis.Environment.after_canon h
  post := Codec.post_plain (Dis.Environment.post)
  only _ s := Dis.Environment.only s
  counted := by
    intro c hc; cases hc
  appended := fun _ h => nomatch h

theorem Codec.AcousticEmitter.verified : Codec.AcousticEmitter.Verified where
  rt s o _ := Dis.AcousticEmitter.rt s o
  loc s := Dis.AcousticEmitter.loc s
  lay o := Dis.AcousticEmitter.lay o
  sized o := Dis.AcousticEmitter.sized o
  ok_iff o := Dis.AcousticEmitter.ok_iff o
  canon _ h := Dis.AcousticEmitter.after_canon h
  post := Codec.post_plain (Dis.AcousticEmitter.post)
  only _ s := Dis.AcousticEmitter.only s
  counted := by
    intro c hc; cases hc
  appended := fun _ h => nomatch h

theorem Codec.AngularVelocityVector.verified : Codec.AngularVelocityVector.Verified where
  rt s o _ := Dis.AngularVelocityVector.rt s o
  loc s := Dis.AngularVelocityVector.loc s
  lay o := Dis.AngularVelocityVector.lay o
  sized o := Dis.AngularVelocityVector.sized o
  ok_iff o := Dis.AngularVelocityVector.ok_iff o
  canon _ h := Dis.AngularVelocityVector.after_canon h
  post := Codec.post_plain (Dis.AngularVelocityVector.post)
  only _ s := Dis.AngularVelocityVector.only s
  counted := by
    intro c hc; cases hc
  appended := fun _ h => nomatch h

theorem Codec.AggregateMarking.verified : Codec.AggregateMarking.Verified where
  rt s o _ := Dis.AggregateMarking.rt s o
  loc s := Dis.AggregateMarking.loc s
  lay o := Dis.AggregateMarking.lay o
  sized o := Dis.AggregateMarking.sized o
  ok_iff o := Dis.AggregateMarking.ok_iff o
  canon _ h := Dis.AggregateMarking.after_canon h
  post := Codec.post_plain (Dis.AggregateMarking.post)
  only _ s := Dis.AggregateMarking.only s
  counted := by
    intro c hc; cases hc
  appended := fun _ h => nomatch h

theorem Codec.DataFilterRecord.verified : Codec.DataFilterRecord.Verified where
  rt s o _ := Dis.DataFilterRecord.rt s o
  loc s := Dis.DataFilterRecord.loc s
  lay o := Dis.DataFilterRecord.lay o
  sized o := Dis.DataFilterRecord.sized o
  ok_iff o := Dis.DataFilterRecord.ok_iff o
  canon _ h := Dis.DataFilterRecord.after_canon h
  post := Codec.post_plain (Dis.DataFilterRecord.post)
  only _ s := Dis.DataFilterRecord.only s
  counted := by
    intro c hc; cases hc
  appended := fun _ h => nomatch h

theorem Codec.IntercomIdentifier.verified : Codec.IntercomIdentifier.Verified where
  rt s o _ := Dis.IntercomIdentifier.rt s o
  loc s := Dis.IntercomIdentifier.loc s
  lay o := Dis.IntercomIdentifier.lay o
  sized o := Dis.IntercomIdentifier.sized o
  ok_iff o := Dis.IntercomIdentifier.ok_iff o
  canon _ h := Dis.IntercomIdentifier.after_canon h
  post := Codec.post_plain (Dis.IntercomIdentifier.post)
  only _ s := Dis.IntercomIdentifier.only s
  counted := by
    intro c hc; cases hc
  appended := fun _ h => nomatch h

theorem Codec.StorageFuel.verified : Codec.StorageFuel.Verified where
  rt s o _ := Dis.StorageFuel.rt s o
  loc s := Dis.StorageFuel.loc s
  lay o := Dis.StorageFuel.lay o
  sized o := Dis.StorageFuel.sized o
  ok_iff o := Dis.StorageFuel.ok_iff o
  canon _ h := Dis.StorageFuel.after_canon h
  post := Codec.post_plain (Dis.StorageFuel.post)
  only _ s := Dis.StorageFuel.only s
  counted := by
    intro c hc; cases hc
  appended := fun _ h => nomatch h

theorem Codec.Sensor.verified : Codec.Sensor.Verified where
  rt s o _ := Dis.Sensor.rt s o
  loc s := Dis.Sensor.loc s
  lay o := Dis.Sensor.lay o
  sized o := Dis.Sensor.sized o
  ok_iff o := Dis.Sensor.ok_iff o
  canon _ h := Dis.Sensor.after_canon h
  post := Codec.post_plain (Dis.Sensor.post)
  only _ s := Dis.Sensor.only s
  counted := by
    intro c hc; cases hc
  appended := fun _ h => nomatch h

theorem Codec.MunitionReload.verified : Codec.MunitionReload.Verified where
  rt s o _ := Dis.MunitionReload.rt s o
  loc s := Dis.MunitionReload.loc s
  lay o := Dis.MunitionReload.lay o
  sized o := Dis.MunitionReload.sized o
  ok_iff o := Dis.MunitionReload.ok_iff o
  canon _ h := Dis.MunitionReload.after_canon h
  post := Codec.post_plain (Dis.MunitionReload.post)
  only _ s := Dis.MunitionReload.only s
  counted := by
    intro c hc; cases hc
  appended := fun _ h => nomatch h

theorem Codec.StorageFuelReload.verified : Codec.StorageFuelReload.Verified where
  rt s o _ := Dis.StorageFuelReload.rt s o
  loc s := Dis.StorageFuelReload.loc s
  lay o := Dis.StorageFuelReload.lay o
  sized o := Dis.StorageFuelReload.sized o
  ok_iff o := Dis.StorageFuelReload.ok_iff o
  canon _ h := Dis.StorageFuelReload.after_canon h
  post := Codec.post_plain (Dis.StorageFuelReload.post)
  only _ s := Dis.StorageFuelReload.only s
  counted := by
    intro c hc; cases hc
  appended := fun _ h => nomatch h

theorem Codec.ExpendableReload.verified : Codec.ExpendableReload.Verified where
  rt s o _ := Dis.ExpendableReload.rt s o
  loc s := Dis.ExpendableReload.loc s
  lay o := Dis.ExpendableReload.lay o
  sized o := Dis.ExpendableReload.sized o
  ok_iff o := Dis.ExpendableReload.ok_iff o
  canon _ h := Dis.ExpendableReload.after_canon h
  post := Codec.post_plain (Dis.ExpendableReload.post)
  only _ s := Dis.ExpendableReload.only s
  counted := by
    intro c hc; cases hc
  appended := fun _ h => nomatch h

theorem Codec.EngineFuelReload.verified : Codec.EngineFuelReload.Verified where
  rt s o _ := Dis.EngineFuelReload.rt s o
  loc s := Dis.EngineFuelReload.loc s
  lay o := Dis.EngineFuelReload.lay o
  sized o := Dis.EngineFuelReload.sized o
  ok_iff o := Dis.EngineFuelReload.ok_iff o
  canon _ h := Dis.EngineFuelReload.after_canon h
  post := Codec.post_plain (Dis.EngineFuelReload.post)
  only _ s := Dis.EngineFuelReload.only s
  counted := by
    intro c hc; cases hc
  appended := fun _ h => nomatch h

theorem Codec.UnattachedIdentifier.verified : Codec.UnattachedIdentifier.Verified where
  rt s o _ := Dis.UnattachedIdentifier.rt s o
  loc s := Dis.UnattachedIdentifier.loc s
  lay o := Dis.UnattachedIdentifier.lay o
  sized o := Dis.UnattachedIdentifier.sized o
  ok_iff o := Dis.UnattachedIdentifier.ok_iff o
  canon _ h := Dis.UnattachedIdentifier.after_canon h
  post := Codec.post_plain (Dis.UnattachedIdentifier.post)
  only _ s := Dis.UnattachedIdentifier.only s
  counted := by
    intro c hc; cases hc
  appended := fun _ h => nomatch h

theorem Codec.EntityTypeVP.verified : Codec.EntityTypeVP.Verified where
  rt s o _ := Dis.EntityTypeVP.rt s o
  loc s := Dis.EntityTypeVP.loc s
  lay o := Dis.EntityTypeVP.lay o
  sized o := Dis.EntityTypeVP.sized o
  ok_iff o := Dis.EntityTypeVP.ok_iff o
  canon _ h := Dis.EntityTypeVP.after_canon h
  post := Codec.post_plain (Dis.EntityTypeVP.post)
  only _ s := Dis.EntityTypeVP.only s
  counted := by
    intro c hc; cases hc
  appended := fun _ h => nomatch h

theorem Codec.BeamStatus.verified : Codec.BeamStatus.Verified where
  rt s o _ := Dis.BeamStatus.rt s o
  loc s := Dis.BeamStatus.loc s
  lay o := Dis.BeamStatus.lay o
  sized o := Dis.BeamStatus.sized o
  ok_iff o := Dis.BeamStatus.ok_iff o
  canon _ h := Dis.BeamStatus.after_canon h
  post := Codec.post_lossy (Dis.BeamStatus.post)
  only _ s := Dis.BeamStatus.only s
  counted := by
    intro c hc; cases hc
  appended := fun _ h => nomatch h

theorem catalogRecords4_verified : ∀ c ∈ catalogRecords4, c.Verified := by
  intro c hc
  simp only [catalogRecords4, List.mem_cons, List.not_mem_nil, or_false] at hc
  rcases hc with rfl | rfl | rfl | rfl | rfl | rfl | rfl | rfl | rfl | rfl | rfl | rfl | rfl | rfl | rfl | rfl | rfl | rfl | rfl | rfl | rfl | rfl
  · exact Codec.LaunchedMunitionRecord.verified
  · exact Codec.IFFFundamentalParameterData.verified
  · exact Codec.FundamentalOperationalData.verified
  · exact Codec.IntercomCommunicationsParameters.verified
  · exact Codec.Munition.verified
  · exact Codec.StandardVariableSpecification.verified
  · exact Codec.Vector2Float.verified
  · exact Codec.Environment.verified
  · exact Codec.AcousticEmitter.verified
  · exact Codec.AngularVelocityVector.verified
  · exact Codec.AggregateMarking.verified
  · exact Codec.DataFilterRecord.verified
  · exact Codec.IntercomIdentifier.verified
  · exact Codec.StorageFuel.verified
  · exact Codec.Sensor.verified
  · exact Codec.MunitionReload.verified
  · exact Codec.StorageFuelReload.verified
  · exact Codec.ExpendableReload.verified
  · exact Codec.EngineFuelReload.verified
  · exact Codec.UnattachedIdentifier.verified
  · exact Codec.EntityTypeVP.verified
  · exact Codec.BeamStatus.verified

theorem Codec.EnvironmentGeneral.verified : Codec.EnvironmentGeneral.Verified where
  rt s o _ := Dis.EnvironmentGeneral.rt s o
  loc s := Dis.EnvironmentGeneral.loc s
  lay o := Dis.EnvironmentGeneral.lay o
  sized o := Dis.EnvironmentGeneral.sized o
  ok_iff o := Dis.EnvironmentGeneral.ok_iff o
  canon _ h := Dis.EnvironmentGeneral.after_canon h
  post := Codec.post_plain (Dis.EnvironmentGeneral.post)
  only _ s := Dis.EnvironmentGeneral.only s
  counted := by
    intro c hc; cases hc
  appended := fun _ h => nomatch h

theorem Codec.GridAxis.verified : Codec.GridAxis.Verified where
  rt s o _ := Dis.GridAxis.rt s o
  loc s := Dis.GridAxis.loc s
  lay o := Dis.GridAxis.lay o
  sized o := Dis.GridAxis.sized o
  ok_iff o := Dis.GridAxis.ok_iff o
  canon _ h := Dis.GridAxis.after_canon h
  post := Codec.post_plain (Dis.GridAxis.post)
  only _ s := Dis.GridAxis.only s
  counted := by
    intro c hc; cases hc
  appended := fun _ h => nomatch h

theorem Codec.RecordSpecification.verified : Codec.RecordSpecification.Verified where
  rt s o h := Dis.RecordSpecification.rt s o h
  loc s := Dis.RecordSpecification.loc s
  lay o := Dis.RecordSpecification.lay o
  sized o := Dis.RecordSpecification.sized o
  ok_iff o := Dis.RecordSpecification.ok_iff o
  canon _ h := Dis.RecordSpecification.after_canon h
  post := Codec.post_plain (Dis.RecordSpecification.post)
  only h := nomatch h
  counted := by
    refine List.forall_mem_cons.2 ⟨fun o => CountField.At.unsigned (pre := [].flatten)
        (post := [o.recordSets.flatMap RecordSpecificationElement.wire].flatten)
        (by simp [Codec.RecordSpecification, Dis.RecordSpecification.wire]) (SizedL.of_eq (n := _) (SizedL.nil) (by rfl)) (by decide)
        (WidthL.of_eq (WidthL.nil) (by rfl)), ?_⟩
    exact fun _ h => nomatch h
  appended := by
    refine List.forall_mem_cons.2 ⟨fun s o hd hw => ?_, ?_⟩
    · simp only [Codec.RecordSpecification, Dis.RecordSpecification.Decodable, Dis.RecordSpecification.WireOk] at hd hw ⊢
      simp_all [Dis.RecordSpecification.after]
    exact fun _ h => nomatch h

theorem Codec.EventIdentifierLiveEntity.verified : Codec.EventIdentifierLiveEntity.Verified where
  rt s o _ := Dis.EventIdentifierLiveEntity.rt s o
  loc s := Dis.EventIdentifierLiveEntity.loc s
  lay o := Dis.EventIdentifierLiveEntity.lay o
  sized o := Dis.EventIdentifierLiveEntity.sized o
  ok_iff o := Dis.EventIdentifierLiveEntity.ok_iff o
  canon _ h := Dis.EventIdentifierLiveEntity.after_canon h
  post := Codec.post_plain (Dis.EventIdentifierLiveEntity.post)
  only _ s := Dis.EventIdentifierLiveEntity.only s
  counted := by
    intro c hc; cases hc
  appended := fun _ h => nomatch h

theorem Codec.ExpendableDescriptor.verified : Codec.ExpendableDescriptor.Verified where
  rt s o _ := Dis.ExpendableDescriptor.rt s o
  loc s := Dis.ExpendableDescriptor.loc s
  lay o := Dis.ExpendableDescriptor.lay o
  sized o := Dis.ExpendableDescriptor.sized o
  ok_iff o := Dis.ExpendableDescriptor.ok_iff o
  canon _ h := Dis.ExpendableDescriptor.after_canon h
  post := Codec.post_plain (Dis.ExpendableDescriptor.post)
  only _ s := Dis.ExpendableDescriptor.only s
  counted := by
    intro c hc; cases hc
  appended := fun _ h => nomatch h

theorem Codec.PropulsionSystemData.verified : Codec.PropulsionSystemData.Verified where
  rt s o _ := Dis.PropulsionSystemData.rt s o
  loc s := Dis.PropulsionSystemData.loc s
  lay o := Dis.PropulsionSystemData.lay o
  sized o := Dis.PropulsionSystemData.sized o
  ok_iff o := Dis.PropulsionSystemData.ok_iff o
  canon _ h := Dis.PropulsionSystemData.after_canon h
  post := Codec.post_plain (Dis.PropulsionSystemData.post)
  only _ s := Dis.PropulsionSystemData.only s
  counted := by
    intro c hc; cases hc
  appended := fun _ h => nomatch h

theorem Codec.LiveEntityIdentifier.verified : Codec.LiveEntityIdentifier.Verified where
  rt s o _ := Dis.LiveEntityIdentifier.rt s o
  loc s := Dis.LiveEntityIdentifier.loc s
  lay o := Dis.LiveEntityIdentifier.lay o
  sized o := Dis.LiveEntityIdentifier.sized o
  ok_iff o := Dis.LiveEntityIdentifier.ok_iff o
  canon _ h := Dis.LiveEntityIdentifier.after_canon h
  post := Codec.post_plain (Dis.LiveEntityIdentifier.post)
  only _ s := Dis.LiveEntityIdentifier.only s
  counted := by
    intro c hc; cases hc
  appended := fun _ h => nomatch h

theorem Codec.SeparationVP.verified : Codec.SeparationVP.Verified where
  rt s o _ := Dis.SeparationVP.rt s o
  loc s := Dis.SeparationVP.loc s
  lay o := Dis.SeparationVP.lay o
  sized o := Dis.SeparationVP.sized o
  ok_iff o := Dis.SeparationVP.ok_iff o
  canon _ h := Dis.SeparationVP.after_canon h
  post := Codec.post_plain (Dis.SeparationVP.post)
  only _ s := Dis.SeparationVP.only s
  counted := by
    intro c hc; cases hc
  appended := fun _ h => nomatch h

theorem Codec.EmitterSystem.verified : Codec.EmitterSystem.Verified where
  rt s o _ := Dis.EmitterSystem.rt s o
  loc s := Dis.EmitterSystem.loc s
  lay o := Dis.EmitterSystem.lay o
  sized o := Dis.EmitterSystem.sized o
  ok_iff o := Dis.EmitterSystem.ok_iff o
  canon _ h := Dis.EmitterSystem.after_canon h
  post := Codec.post_plain (Dis.EmitterSystem.post)
  only _ s := Dis.EmitterSystem.only s
  counted := by
    intro c hc; cases hc
  appended := fun _ h => nomatch h

theorem Codec.PduStatus.verified : Codec.PduStatus.Verified where
  rt s o _ := Dis.PduStatus.rt s o
  loc s := Dis.PduStatus.loc s
  lay o := Dis.PduStatus.lay o
  sized o := Dis.PduStatus.sized o
  ok_iff o := Dis.PduStatus.ok_iff o
  canon _ h := Dis.PduStatus.after_canon h
  post := Codec.post_plain (Dis.PduStatus.post)
  only _ s := Dis.PduStatus.only s
  counted := by
    intro c hc; cases hc
  appended := fun _ h => nomatch h

theorem Codec.EmissionSystemBeamRecord.verified : Codec.EmissionSystemBeamRecord.Verified where
  rt s o _ := Dis.EmissionSystemBeamRecord.rt s o
  loc s := Dis.EmissionSystemBeamRecord.loc s
  lay o := Dis.EmissionSystemBeamRecord.lay o
  sized o := Dis.EmissionSystemBeamRecord.sized o
  ok_iff o := Dis.EmissionSystemBeamRecord.ok_iff o
  canon _ h := Dis.EmissionSystemBeamRecord.after_canon h
  post := Codec.post_lossy (Dis.EmissionSystemBeamRecord.post)
  only _ s := Dis.EmissionSystemBeamRecord.only s
  counted := by
    refine List.forall_mem_cons.2 ⟨fun o => CountField.At.unsigned (pre := [[.u8 o.beamDataLength], [.u8 o.beamIDNumber], [.u16 o.beamParameterIndex], EEFundamentalParameterData.wire o.fundamentalParameterData, [.u8 o.beamFunction]].flatten)
        (post := [[.u8 o.highDensityTrackJam], BeamStatus.wire o.beamStatus, [.u32 o.jammingModeSequence], o.trackJamRecords.flatMap TrackJamData.wire].flatten)
        (by simp [Codec.EmissionSystemBeamRecord, Dis.EmissionSystemBeamRecord.wire]) (SizedL.of_eq (n := _) (SizedL.append (SizedL.of (lay_unsigned_byte _) (sized_unsigned_byte _)) <|
        SizedL.append (SizedL.of (lay_unsigned_byte _) (sized_unsigned_byte _)) <|
        SizedL.append (SizedL.of (lay_unsigned_short _) (sized_unsigned_short _)) <|
        SizedL.append (SizedL.of (EEFundamentalParameterData.lay _) (EEFundamentalParameterData.sized _)) <|
        SizedL.append (SizedL.of (lay_unsigned_byte _) (sized_unsigned_byte _)) <|
        SizedL.nil) (by rfl)) (by decide)
        (WidthL.of_eq (WidthL.append (WidthL.one) <|
        WidthL.append (WidthL.one) <|
        WidthL.append (WidthL.one) <|
        WidthL.append ((EEFundamentalParameterData.bounded _)) <|
        WidthL.append (WidthL.one) <|
        WidthL.nil) (by rfl)), ?_⟩
    exact fun _ h => nomatch h
  appended := by
    refine List.forall_mem_cons.2 ⟨fun s o hd hw => ?_, ?_⟩
    · simp only [Codec.EmissionSystemBeamRecord, Dis.EmissionSystemBeamRecord.WireOk] at hd hw ⊢
      simp_all [Dis.EmissionSystemBeamRecord.after]
    exact fun _ h => nomatch h

theorem Codec.EmissionSystemRecord.verified : Codec.EmissionSystemRecord.Verified where
  rt s o _ := Dis.EmissionSystemRecord.rt s o
  loc s := Dis.EmissionSystemRecord.loc s
  lay o := Dis.EmissionSystemRecord.lay o
  sized o := Dis.EmissionSystemRecord.sized o
  ok_iff o := Dis.EmissionSystemRecord.ok_iff o
  canon _ h := Dis.EmissionSystemRecord.after_canon h
  post := Codec.post_lossy (Dis.EmissionSystemRecord.post)
  only _ s := Dis.EmissionSystemRecord.only s
  counted := by
    refine List.forall_mem_cons.2 ⟨fun o => CountField.At.unsigned (pre := [[.u8 o.systemDataLength]].flatten)
        (post := [[.u16 0], EmitterSystem.wire o.emitterSystem, Vector3Float.wire o.location, o.beamRecords.flatMap EmissionSystemBeamRecord.wire].flatten)
        (by simp [Codec.EmissionSystemRecord, Dis.EmissionSystemRecord.wire]) (SizedL.of_eq (n := _) (SizedL.append (SizedL.of (lay_unsigned_byte _) (sized_unsigned_byte _)) <|
        SizedL.nil) (by rfl)) (by decide)
        (WidthL.of_eq (WidthL.append (WidthL.one) <|
        WidthL.nil) (by rfl)), ?_⟩
    exact fun _ h => nomatch h
  appended := by
    refine List.forall_mem_cons.2 ⟨fun s o hd hw => ?_, ?_⟩
    · simp only [Codec.EmissionSystemRecord, Dis.EmissionSystemRecord.WireOk] at hd hw ⊢
      simp_all [Dis.EmissionSystemRecord.after]
    exact fun _ h => nomatch h

theorem catalogRecords5_verified : ∀ c ∈ catalogRecords5, c.Verified := by
  intro c hc
  simp only [catalogRecords5, List.mem_cons, List.not_mem_nil, or_false] at hc
  rcases hc with rfl | rfl | rfl | rfl | rfl | rfl | rfl | rfl | rfl | rfl | rfl | rfl
  · exact Codec.EnvironmentGeneral.verified
  · exact Codec.GridAxis.verified
  · exact Codec.RecordSpecification.verified
  · exact Codec.EventIdentifierLiveEntity.verified
  · exact Codec.ExpendableDescriptor.verified
  · exact Codec.PropulsionSystemData.verified
  · exact Codec.LiveEntityIdentifier.verified
  · exact Codec.SeparationVP.verified
  · exact Codec.EmitterSystem.verified
  · exact Codec.PduStatus.verified
  · exact Codec.EmissionSystemBeamRecord.verified
  · exact Codec.EmissionSystemRecord.verified

theorem Codec.EntityStateUpdatePdu.verified : Codec.EntityStateUpdatePdu.Verified where
  rt s o _ := Dis.EntityStateUpdatePdu.rt s o
  loc s := Dis.EntityStateUpdatePdu.loc s
  lay o := Dis.EntityStateUpdatePdu.lay o
  sized o := Dis.EntityStateUpdatePdu.sized o
  ok_iff o := Dis.EntityStateUpdatePdu.ok_iff o
  canon _ h := Dis.EntityStateUpdatePdu.after_canon h
  post := Codec.post_plain (Dis.EntityStateUpdatePdu.post)
  only _ s := Dis.EntityStateUpdatePdu.only s
  counted := by
    refine List.forall_mem_cons.2 ⟨fun o => CountField.At.unsigned (pre := [EntityInformationFamilyPdu.wire o.toEntityInformationFamilyPdu, EntityIdentifier.wire o.entityID, [.s8 o.padding1]].flatten)
        (post := [Vector3Float.wire o.entityLinearVelocity, WorldCoordinates.wire o.entityLocation, EulerAngles.wire o.entityOrientation, [.u32 o.entityAppearance], o.variableParameters.flatMap VariableParameter.wire].flatten)
        (by simp [Codec.EntityStateUpdatePdu, Dis.EntityStateUpdatePdu.wire]) (SizedL.of_eq (n := _) (SizedL.append (SizedL.of (EntityInformationFamilyPdu.lay _) (EntityInformationFamilyPdu.sized _)) <|
        SizedL.append (SizedL.of (EntityIdentifier.lay _) (EntityIdentifier.sized _)) <|
        SizedL.append (SizedL.of (lay_byte _) (sized_byte _)) <|
        SizedL.nil) (by rfl)) (by decide)
        (WidthL.of_eq (WidthL.append ((EntityInformationFamilyPdu.bounded _)) <|
        WidthL.append ((EntityIdentifier.bounded _)) <|
        WidthL.append (WidthL.one) <|
        WidthL.nil) (by rfl)), ?_⟩
    exact fun _ h => nomatch h
  appended := by
    refine List.forall_mem_cons.2 ⟨fun s o hd hw => ?_, ?_⟩
    · simp only [Codec.EntityStateUpdatePdu, Dis.EntityStateUpdatePdu.WireOk] at hd hw ⊢
      simp_all [Dis.EntityStateUpdatePdu.after]
    exact fun _ h => nomatch h

theorem Codec.ServiceRequestPdu.verified : Codec.ServiceRequestPdu.Verified where
  rt s o _ := Dis.ServiceRequestPdu.rt s o
  loc s := Dis.ServiceRequestPdu.loc s
  lay o := Dis.ServiceRequestPdu.lay o
  sized o := Dis.ServiceRequestPdu.sized o
  ok_iff o := Dis.ServiceRequestPdu.ok_iff o
  canon _ h := Dis.ServiceRequestPdu.after_canon h
  post := Codec.post_plain (Dis.ServiceRequestPdu.post)
  only _ s := Dis.ServiceRequestPdu.only s
  counted := by
    refine List.forall_mem_cons.2 ⟨fun o => CountField.At.unsigned (pre := [LogisticsFamilyPdu.wire o.toLogisticsFamilyPdu, EntityIdentifier.wire o.requestingEntityID, EntityIdentifier.wire o.servicingEntityID, [.u8 o.serviceTypeRequested]].flatten)
        (post := [[.s16 o.serviceRequestPadding], o.supplies.flatMap SupplyQuantity.wire].flatten)
        (by simp [Codec.ServiceRequestPdu, Dis.ServiceRequestPdu.wire]) (SizedL.of_eq (n := _) (SizedL.append (SizedL.of (LogisticsFamilyPdu.lay _) (LogisticsFamilyPdu.sized _)) <|
        SizedL.append (SizedL.of (EntityIdentifier.lay _) (EntityIdentifier.sized _)) <|
        SizedL.append (SizedL.of (EntityIdentifier.lay _) (EntityIdentifier.sized _)) <|
        SizedL.append (SizedL.of (lay_unsigned_byte _) (sized_unsigned_byte _)) <|
        SizedL.nil) (by rfl)) (by decide)
        (WidthL.of_eq (WidthL.append ((LogisticsFamilyPdu.bounded _)) <|
        WidthL.append ((EntityIdentifier.bounded _)) <|
        WidthL.append ((EntityIdentifier.bounded _)) <|
        WidthL.append (WidthL.one) <|
        WidthL.nil) (by rfl)), ?_⟩
    exact fun _ h => nomatch h
  appended := by
    refine List.forall_mem_cons.2 ⟨fun s o hd hw => ?_, ?_⟩
    · simp only [Codec.ServiceRequestPdu, Dis.ServiceRequestPdu.WireOk] at hd hw ⊢
      simp_all [Dis.ServiceRequestPdu.after]
    exact fun _ h => nomatch h

theorem Codec.RepairCompletePdu.verified : Codec.RepairCompletePdu.Verified where
  rt s o _ := Dis.RepairCompletePdu.rt s o
  loc s := Dis.RepairCompletePdu.loc s
  lay o := Dis.RepairCompletePdu.lay o
  sized o := Dis.RepairCompletePdu.sized o
  ok_iff o := Dis.RepairCompletePdu.ok_iff o
  canon _ h := Dis.RepairCompletePdu.after_canon h
  post := Codec.post_plain (Dis.RepairCompletePdu.post)
  only _ s := Dis.RepairCompletePdu.only s
  counted := by
    intro c hc; cases hc
  appended := fun _ h => nomatch h

theorem Codec.CollisionPdu.verified : Codec.CollisionPdu.Verified where
  rt s o _ := Dis.CollisionPdu.rt s o
  loc s := Dis.CollisionPdu.loc s
  lay o := Dis.CollisionPdu.lay o
  sized o := Dis.CollisionPdu.sized o
  ok_iff o := Dis.CollisionPdu.ok_iff o
  canon _ h := Dis.CollisionPdu.after_canon h
  post := Codec.post_plain (Dis.CollisionPdu.post)
  only _ s := Dis.CollisionPdu.only s
  counted := by
    intro c hc; cases hc
  appended := fun _ h => nomatch h

theorem Codec.RepairResponsePdu.verified : Codec.RepairResponsePdu.Verified where
  rt s o _ := Dis.RepairResponsePdu.rt s o
  loc s := Dis.RepairResponsePdu.loc s
  lay o := Dis.RepairResponsePdu.lay o
  sized o := Dis.RepairResponsePdu.sized o
  ok_iff o := Dis.RepairResponsePdu.ok_iff o
  canon _ h := Dis.RepairResponsePdu.after_canon h
  post := Codec.post_plain (Dis.RepairResponsePdu.post)
  only _ s := Dis.RepairResponsePdu.only s
  counted := by
    intro c hc; cases hc
  appended := fun _ h => nomatch h

theorem Codec.DataQueryPdu.verified : Codec.DataQueryPdu.Verified where
  rt s o _ := Dis.DataQueryPdu.rt s o
  loc s := Dis.DataQueryPdu.loc s
  lay o := Dis.DataQueryPdu.lay o
  sized o := Dis.DataQueryPdu.sized o
  ok_iff o := Dis.DataQueryPdu.ok_iff o
  canon _ h := Dis.DataQueryPdu.after_canon h
  post := Codec.post_plain (Dis.DataQueryPdu.post)
  only _ s := Dis.DataQueryPdu.only s
  counted := by
    intro c hc; cases hc
  appended := fun _ h => nomatch h

theorem catalogPdus1_verified : ∀ c ∈ catalogPdus1, c.Verified := by
  intro c hc
  simp only [catalogPdus1, List.mem_cons, List.not_mem_nil, or_false] at hc
  rcases hc with rfl | rfl | rfl | rfl | rfl | rfl
  · exact Codec.EntityStateUpdatePdu.verified
  · exact Codec.ServiceRequestPdu.verified
  · exact Codec.RepairCompletePdu.verified
  · exact Codec.CollisionPdu.verified
  · exact Codec.RepairResponsePdu.verified
  · exact Codec.DataQueryPdu.verified

theorem Codec.CreateEntityPdu.verified : Codec.CreateEntityPdu.Verified where
  rt s o _ := Dis.CreateEntityPdu.rt s o
  loc s := Dis.CreateEntityPdu.loc s
  lay o := Dis.CreateEntityPdu.lay o
  sized o := Dis.CreateEntityPdu.sized o
  ok_iff o := Dis.CreateEntityPdu.ok_iff o
  canon _ h := Dis.CreateEntityPdu.after_canon h
  post := Codec.post_plain (Dis.CreateEntityPdu.post)
  only _ s := Dis.CreateEntityPdu.only s
  counted := by
    intro c hc; cases hc
  appended := fun _ h => nomatch h

theorem Codec.IntercomSignalPdu.verified : Codec.IntercomSignalPdu.Verified where
  rt s o _ := Dis.IntercomSignalPdu.rt s o
  loc s := Dis.IntercomSignalPdu.loc s
  lay o := Dis.IntercomSignalPdu.lay o
  sized o := Dis.IntercomSignalPdu.sized o
  ok_iff o := Dis.IntercomSignalPdu.ok_iff o
  canon _ h := Dis.IntercomSignalPdu.after_canon h
  post := Codec.post_lossy (Dis.IntercomSignalPdu.post)
  only h := nomatch h
  counted := by
    refine List.forall_mem_cons.2 ⟨fun o => CountField.At.unsigned (pre := [RadioCommunicationsFamilyPdu.wire o.toRadioCommunicationsFamilyPdu, EntityIdentifier.wire o.entityID, [.u16 o.communicationsDeviceID], [.u16 o.encodingScheme], [.u16 o.tdlType], [.u32 o.sampleRate]].flatten)
        (post := [[.u16 o.samples], o.data.map fun _ => .fail .attributeError].flatten)
        (by simp [Codec.IntercomSignalPdu, Dis.IntercomSignalPdu.wire, Int.mul_comm]) (SizedL.of_eq (n := _) (SizedL.append (SizedL.of (RadioCommunicationsFamilyPdu.lay _) (RadioCommunicationsFamilyPdu.sized _)) <|
        SizedL.append (SizedL.of (EntityIdentifier.lay _) (EntityIdentifier.sized _)) <|
        SizedL.append (SizedL.of (lay_unsigned_short _) (sized_unsigned_short _)) <|
        SizedL.append (SizedL.of (lay_unsigned_short _) (sized_unsigned_short _)) <|
        SizedL.append (SizedL.of (lay_unsigned_short _) (sized_unsigned_short _)) <|
        SizedL.append (SizedL.of (lay_unsigned_int _) (sized_unsigned_int _)) <|
        SizedL.nil) (by rfl)) (by decide)
        (WidthL.of_eq (WidthL.append ((RadioCommunicationsFamilyPdu.bounded _)) <|
        WidthL.append ((EntityIdentifier.bounded _)) <|
        WidthL.append (WidthL.one) <|
        WidthL.append (WidthL.one) <|
        WidthL.append (WidthL.one) <|
        WidthL.append (WidthL.one) <|
        WidthL.nil) (by rfl)), ?_⟩
    exact fun _ h => nomatch h
  appended := by
    refine List.forall_mem_cons.2 ⟨fun s o hd hw => ?_, ?_⟩
    · simp only [Codec.IntercomSignalPdu, Dis.IntercomSignalPdu.WireOk] at hd hw ⊢
      simp_all [Dis.IntercomSignalPdu.after]
    exact fun _ h => nomatch h

theorem Codec.RemoveEntityPdu.verified : Codec.RemoveEntityPdu.Verified where
  rt s o _ := Dis.RemoveEntityPdu.rt s o
  loc s := Dis.RemoveEntityPdu.loc s
  lay o := Dis.RemoveEntityPdu.lay o
  sized o := Dis.RemoveEntityPdu.sized o
  ok_iff o := Dis.RemoveEntityPdu.ok_iff o
  canon _ h := Dis.RemoveEntityPdu.after_canon h
  post := Codec.post_plain (Dis.RemoveEntityPdu.post)
  only _ s := Dis.RemoveEntityPdu.only s
  counted := by
    intro c hc; cases hc
  appended := fun _ h => nomatch h

theorem Codec.ResupplyReceivedPdu.verified : Codec.ResupplyReceivedPdu.Verified where
  rt s o h := Dis.ResupplyReceivedPdu.rt s o h
  loc s := Dis.ResupplyReceivedPdu.loc s
  lay o := Dis.ResupplyReceivedPdu.lay o
  sized o := Dis.ResupplyReceivedPdu.sized o
  ok_iff o := Dis.ResupplyReceivedPdu.ok_iff o
  canon _ h := Dis.ResupplyReceivedPdu.after_canon h
  post := Codec.post_plain (Dis.ResupplyReceivedPdu.post)
  only h := nomatch h
  counted := by
    refine List.forall_mem_cons.2 ⟨fun o => CountField.At.unsigned (pre := [LogisticsFamilyPdu.wire o.toLogisticsFamilyPdu, EntityIdentifier.wire o.receivingEntityID, EntityIdentifier.wire o.supplyingEntityID].flatten)
        (post := [[.s16 o.padding1], [.s8 o.padding2], o.supplies.flatMap SupplyQuantity.wire].flatten)
        (by simp [Codec.ResupplyReceivedPdu, Dis.ResupplyReceivedPdu.wire]) (SizedL.of_eq (n := _) (SizedL.append (SizedL.of (LogisticsFamilyPdu.lay _) (LogisticsFamilyPdu.sized _)) <|
        SizedL.append (SizedL.of (EntityIdentifier.lay _) (EntityIdentifier.sized _)) <|
        SizedL.append (SizedL.of (EntityIdentifier.lay _) (EntityIdentifier.sized _)) <|
        SizedL.nil) (by rfl)) (by decide)
        (WidthL.of_eq (WidthL.append ((LogisticsFamilyPdu.bounded _)) <|
        WidthL.append ((EntityIdentifier.bounded _)) <|
        WidthL.append ((EntityIdentifier.bounded _)) <|
        WidthL.nil) (by rfl)), ?_⟩
    exact fun _ h => nomatch h
  appended := by
    refine List.forall_mem_cons.2 ⟨fun s o hd hw => ?_, ?_⟩
    · simp only [Codec.ResupplyReceivedPdu, Dis.ResupplyReceivedPdu.Decodable, Dis.ResupplyReceivedPdu.WireOk] at hd hw ⊢
      simp_all [Dis.ResupplyReceivedPdu.after]
    exact fun _ h => nomatch h

theorem Codec.CollisionElasticPdu.verified : Codec.CollisionElasticPdu.Verified where
  rt s o _ := Dis.CollisionElasticPdu.rt s o
  loc s := Dis.CollisionElasticPdu.loc s
  lay o := Dis.CollisionElasticPdu.lay o
  sized o := Dis.CollisionElasticPdu.sized o
  ok_iff o := Dis.CollisionElasticPdu.ok_iff o
  canon _ h := Dis.CollisionElasticPdu.after_canon h
  post := Codec.post_plain (Dis.CollisionElasticPdu.post)
  only _ s := Dis.CollisionElasticPdu.only s
  counted := by
    intro c hc; cases hc
  appended := fun _ h => nomatch h

theorem Codec.ActionRequestPdu.verified : Codec.ActionRequestPdu.Verified where
  rt s o _ := Dis.ActionRequestPdu.rt s o
  loc s := Dis.ActionRequestPdu.loc s
  lay o := Dis.ActionRequestPdu.lay o
  sized o := Dis.ActionRequestPdu.sized o
  ok_iff o := Dis.ActionRequestPdu.ok_iff o
  canon _ h := Dis.ActionRequestPdu.after_canon h
  post := Codec.post_lossy (Dis.ActionRequestPdu.post)
  only _ s := Dis.ActionRequestPdu.only s
  counted := by
    intro c hc; cases hc
  appended := fun _ h => nomatch h

theorem Codec.AcknowledgePdu.verified : Codec.AcknowledgePdu.Verified where
  rt s o _ := Dis.AcknowledgePdu.rt s o
  loc s := Dis.AcknowledgePdu.loc s
  lay o := Dis.AcknowledgePdu.lay o
  sized o := Dis.AcknowledgePdu.sized o
  ok_iff o := Dis.AcknowledgePdu.ok_iff o
  canon _ h := Dis.AcknowledgePdu.after_canon h
  post := Codec.post_plain (Dis.AcknowledgePdu.post)
  only _ s := Dis.AcknowledgePdu.only s
  counted := by
    intro c hc; cases hc
  appended := fun _ h => nomatch h

theorem Codec.ActionRequestReliablePdu.verified : Codec.ActionRequestReliablePdu.Verified where
  rt s o _ := Dis.ActionRequestReliablePdu.rt s o
  loc s := Dis.ActionRequestReliablePdu.loc s
  lay o := Dis.ActionRequestReliablePdu.lay o
  sized o := Dis.ActionRequestReliablePdu.sized o
  ok_iff o := Dis.ActionRequestReliablePdu.ok_iff o
  canon _ h := Dis.ActionRequestReliablePdu.after_canon h
  post := Codec.post_lossy (Dis.ActionRequestReliablePdu.post)
  only _ s := Dis.ActionRequestReliablePdu.only s
  counted := by
    intro c hc; cases hc
  appended := fun _ h => nomatch h

theorem catalogPdus2_verified : ∀ c ∈ catalogPdus2, c.Verified := by
  intro c hc
  simp only [catalogPdus2, List.mem_cons, List.not_mem_nil, or_false] at hc
  rcases hc with rfl | rfl | rfl | rfl | rfl | rfl | rfl | rfl
  · exact Codec.CreateEntityPdu.verified
  · exact Codec.IntercomSignalPdu.verified
  · exact Codec.RemoveEntityPdu.verified
  · exact Codec.ResupplyReceivedPdu.verified
  · exact Codec.CollisionElasticPdu.verified
  · exact Codec.ActionRequestPdu.verified
  · exact Codec.AcknowledgePdu.verified
  · exact Codec.ActionRequestReliablePdu.verified

theorem Codec.DesignatorPdu.verified : Codec.DesignatorPdu.Verified where
  rt s o _ := Dis.DesignatorPdu.rt s o
  loc s := Dis.DesignatorPdu.loc s
  lay o := Dis.DesignatorPdu.lay o
  sized o := Dis.DesignatorPdu.sized o
  ok_iff o := Dis.DesignatorPdu.ok_iff o
  canon _ h := Dis.DesignatorPdu.after_canon h
  post := Codec.post_plain (Dis.DesignatorPdu.post)
  only _ s := Dis.DesignatorPdu.only s
  counted := by
    intro c hc; cases hc
  appended := fun _ h => nomatch h

theorem Codec.StopFreezePdu.verified : Codec.StopFreezePdu.Verified where
  rt s o _ := Dis.StopFreezePdu.rt s o
  loc s := Dis.StopFreezePdu.loc s
  lay o := Dis.StopFreezePdu.lay o
  sized o := Dis.StopFreezePdu.sized o
  ok_iff o := Dis.StopFreezePdu.ok_iff o
  canon _ h := Dis.StopFreezePdu.after_canon h
  post := Codec.post_plain (Dis.StopFreezePdu.post)
  only _ s := Dis.StopFreezePdu.only s
  counted := by
    intro c hc; cases hc
  appended := fun _ h => nomatch h

theorem Codec.EntityStatePdu.verified : Codec.EntityStatePdu.Verified where
  rt s o _ := Dis.EntityStatePdu.rt s o
  loc s := Dis.EntityStatePdu.loc s
  lay o := Dis.EntityStatePdu.lay o
  sized o := Dis.EntityStatePdu.sized o
  ok_iff o := Dis.EntityStatePdu.ok_iff o
  canon _ h := Dis.EntityStatePdu.after_canon h
  post := Codec.post_plain (Dis.EntityStatePdu.post)
  only _ s := Dis.EntityStatePdu.only s
  counted := by
    refine List.forall_mem_cons.2 ⟨fun o => CountField.At.unsigned (pre := [EntityInformationFamilyPdu.wire o.toEntityInformationFamilyPdu, EntityIdentifier.wire o.entityID, [.u8 o.forceId]].flatten)
        (post := [EntityType.wire o.entityType, EntityType.wire o.alternativeEntityType, Vector3Float.wire o.entityLinearVelocity, WorldCoordinates.wire o.entityLocation, EulerAngles.wire o.entityOrientation, [.u32 o.entityAppearance], DeadReckoningParameters.wire o.deadReckoningParameters, EntityMarking.wire o.marking, [.u32 o.capabilities], o.variableParameters.flatMap VariableParameter.wire].flatten)
        (by simp [Codec.EntityStatePdu, Dis.EntityStatePdu.wire]) (SizedL.of_eq (n := _) (SizedL.append (SizedL.of (EntityInformationFamilyPdu.lay _) (EntityInformationFamilyPdu.sized _)) <|
        SizedL.append (SizedL.of (EntityIdentifier.lay _) (EntityIdentifier.sized _)) <|
        SizedL.append (SizedL.of (lay_unsigned_byte _) (sized_unsigned_byte _)) <|
        SizedL.nil) (by rfl)) (by decide)
        (WidthL.of_eq (WidthL.append ((EntityInformationFamilyPdu.bounded _)) <|
        WidthL.append ((EntityIdentifier.bounded _)) <|
        WidthL.append (WidthL.one) <|
        WidthL.nil) (by rfl)), ?_⟩
    exact fun _ h => nomatch h
  appended := by
    refine List.forall_mem_cons.2 ⟨fun s o hd hw => ?_, ?_⟩
    · simp only [Codec.EntityStatePdu, Dis.EntityStatePdu.WireOk] at hd hw ⊢
      simp_all [Dis.EntityStatePdu.after]
    exact fun _ h => nomatch h

theorem Codec.StartResumePdu.verified : Codec.StartResumePdu.Verified where
  rt s o _ := Dis.StartResumePdu.rt s o
  loc s := Dis.StartResumePdu.loc s
  lay o := Dis.StartResumePdu.lay o
  sized o := Dis.StartResumePdu.sized o
  ok_iff o := Dis.StartResumePdu.ok_iff o
  canon _ h := Dis.StartResumePdu.after_canon h
  post := Codec.post_plain (Dis.StartResumePdu.post)
  only _ s := Dis.StartResumePdu.only s
  counted := by
    intro c hc; cases hc
  appended := fun _ h => nomatch h

theorem Codec.ElectromagneticEmissionsPdu.verified : Codec.ElectromagneticEmissionsPdu.Verified where
  rt s o _ := Dis.ElectromagneticEmissionsPdu.rt s o
  loc s := Dis.ElectromagneticEmissionsPdu.loc s
  lay o := Dis.ElectromagneticEmissionsPdu.lay o
  sized o := Dis.ElectromagneticEmissionsPdu.sized o
  ok_iff o := Dis.ElectromagneticEmissionsPdu.ok_iff o
  canon _ h := Dis.ElectromagneticEmissionsPdu.after_canon h
  post := Codec.post_lossy (Dis.ElectromagneticEmissionsPdu.post)
  only _ s := Dis.ElectromagneticEmissionsPdu.only s
  counted := by
    refine List.forall_mem_cons.2 ⟨fun o => CountField.At.unsigned (pre := [DistributedEmissionsFamilyPdu.wire o.toDistributedEmissionsFamilyPdu, EntityIdentifier.wire o.emittingEntityID, EventIdentifier.wire o.eventID, [.u8 o.stateUpdateIndicator]].flatten)
        (post := [[.u16 o.paddingForEmissionsPdu], o.systems.flatMap EmissionSystemRecord.wire].flatten)
        (by simp [Codec.ElectromagneticEmissionsPdu, Dis.ElectromagneticEmissionsPdu.wire]) (SizedL.of_eq (n := _) (SizedL.append (SizedL.of (DistributedEmissionsFamilyPdu.lay _) (DistributedEmissionsFamilyPdu.sized _)) <|
        SizedL.append (SizedL.of (EntityIdentifier.lay _) (EntityIdentifier.sized _)) <|
        SizedL.append (SizedL.of (EventIdentifier.lay _) (EventIdentifier.sized _)) <|
        SizedL.append (SizedL.of (lay_unsigned_byte _) (sized_unsigned_byte _)) <|
        SizedL.nil) (by rfl)) (by decide)
        (WidthL.of_eq (WidthL.append ((DistributedEmissionsFamilyPdu.bounded _)) <|
        WidthL.append ((EntityIdentifier.bounded _)) <|
        WidthL.append ((EventIdentifier.bounded _)) <|
        WidthL.append (WidthL.one) <|
        WidthL.nil) (by rfl)), ?_⟩
    exact fun _ h => nomatch h
  appended := by
    refine List.forall_mem_cons.2 ⟨fun s o hd hw => ?_, ?_⟩
    · simp only [Codec.ElectromagneticEmissionsPdu, Dis.ElectromagneticEmissionsPdu.WireOk] at hd hw ⊢
      simp_all [Dis.ElectromagneticEmissionsPdu.after]
    exact fun _ h => nomatch h

theorem Codec.ResupplyOfferPdu.verified : Codec.ResupplyOfferPdu.Verified where
  rt s o _ := Dis.ResupplyOfferPdu.rt s o
  loc s := Dis.ResupplyOfferPdu.loc s
  lay o := Dis.ResupplyOfferPdu.lay o
  sized o := Dis.ResupplyOfferPdu.sized o
  ok_iff o := Dis.ResupplyOfferPdu.ok_iff o
  canon _ h := Dis.ResupplyOfferPdu.after_canon h
  post := Codec.post_plain (Dis.ResupplyOfferPdu.post)
  only _ s := Dis.ResupplyOfferPdu.only s
  counted := by
    refine List.forall_mem_cons.2 ⟨fun o => CountField.At.unsigned (pre := [LogisticsFamilyPdu.wire o.toLogisticsFamilyPdu, EntityIdentifier.wire o.receivingEntityID, EntityIdentifier.wire o.supplyingEntityID].flatten)
        (post := [[.s8 o.padding1], [.s16 o.padding2], o.supplies.flatMap SupplyQuantity.wire].flatten)
        (by simp [Codec.ResupplyOfferPdu, Dis.ResupplyOfferPdu.wire]) (SizedL.of_eq (n := _) (SizedL.append (SizedL.of (LogisticsFamilyPdu.lay _) (LogisticsFamilyPdu.sized _)) <|
        SizedL.append (SizedL.of (EntityIdentifier.lay _) (EntityIdentifier.sized _)) <|
        SizedL.append (SizedL.of (EntityIdentifier.lay _) (EntityIdentifier.sized _)) <|
        SizedL.nil) (by rfl)) (by decide)
        (WidthL.of_eq (WidthL.append ((LogisticsFamilyPdu.bounded _)) <|
        WidthL.append ((EntityIdentifier.bounded _)) <|
        WidthL.append ((EntityIdentifier.bounded _)) <|
        WidthL.nil) (by rfl)), ?_⟩
    exact fun _ h => nomatch h
  appended := by
    refine List.forall_mem_cons.2 ⟨fun s o hd hw => ?_, ?_⟩
    · simp only [Codec.ResupplyOfferPdu, Dis.ResupplyOfferPdu.WireOk] at hd hw ⊢
      simp_all [Dis.ResupplyOfferPdu.after]
    exact fun _ h => nomatch h

theorem Codec.SetDataReliablePdu.verified : Codec.SetDataReliablePdu.Verified where
  rt s o _ := Dis.SetDataReliablePdu.rt s o
  loc s := Dis.SetDataReliablePdu.loc s
  lay o := Dis.SetDataReliablePdu.lay o
  sized o := Dis.SetDataReliablePdu.sized o
  ok_iff o := Dis.SetDataReliablePdu.ok_iff o
  canon _ h := Dis.SetDataReliablePdu.after_canon h
  post := Codec.post_lossy (Dis.SetDataReliablePdu.post)
  only _ s := Dis.SetDataReliablePdu.only s
  counted := by
    intro c hc; cases hc
  appended := fun _ h => nomatch h

theorem Codec.EventReportPdu.verified : Codec.EventReportPdu.Verified where
  rt s o _ := Dis.EventReportPdu.rt s o
  loc s := Dis.EventReportPdu.loc s
  lay o := Dis.EventReportPdu.lay o
  sized o := Dis.EventReportPdu.sized o
  ok_iff o := Dis.EventReportPdu.ok_iff o
  canon _ h := Dis.EventReportPdu.after_canon h
  post := Codec.post_lossy (Dis.EventReportPdu.post)
  only _ s := Dis.EventReportPdu.only s
  counted := by
    intro c hc; cases hc
  appended := fun _ h => nomatch h

theorem Codec.PointObjectStatePdu.verified : Codec.PointObjectStatePdu.Verified where
  rt s o _ := Dis.PointObjectStatePdu.rt s o
  loc s := Dis.PointObjectStatePdu.loc s
  lay o := Dis.PointObjectStatePdu.lay o
  sized o := Dis.PointObjectStatePdu.sized o
  ok_iff o := Dis.PointObjectStatePdu.ok_iff o
  canon _ h := Dis.PointObjectStatePdu.after_canon h
  post := Codec.post_plain (Dis.PointObjectStatePdu.post)
  only _ s := Dis.PointObjectStatePdu.only s
  counted := by
    intro c hc; cases hc
  appended := fun _ h => nomatch h

theorem Codec.DataPdu.verified : Codec.DataPdu.Verified where
  rt s o _ := Dis.DataPdu.rt s o
  loc s := Dis.DataPdu.loc s
  lay o := Dis.DataPdu.lay o
  sized o := Dis.DataPdu.sized o
  ok_iff o := Dis.DataPdu.ok_iff o
  canon _ h := Dis.DataPdu.after_canon h
  post := Codec.post_lossy (Dis.DataPdu.post)
  only _ s := Dis.DataPdu.only s
  counted := by
    intro c hc; cases hc
  appended := fun _ h => nomatch h

theorem catalogPdus3_verified : ∀ c ∈ catalogPdus3, c.Verified := by
  intro c hc
  simp only [catalogPdus3, List.mem_cons, List.not_mem_nil, or_false] at hc
  rcases hc with rfl | rfl | rfl | rfl | rfl | rfl | rfl | rfl | rfl | rfl
  · exact Codec.DesignatorPdu.verified
  · exact Codec.StopFreezePdu.verified
  · exact Codec.EntityStatePdu.verified
  · exact Codec.StartResumePdu.verified
  · exact Codec.ElectromagneticEmissionsPdu.verified
  · exact Codec.ResupplyOfferPdu.verified
  · exact Codec.SetDataReliablePdu.verified
  · exact Codec.EventReportPdu.verified
  · exact Codec.PointObjectStatePdu.verified
  · exact Codec.DataPdu.verified

theorem Codec.FastEntityStatePdu.verified : Codec.FastEntityStatePdu.Verified where
  rt s o _ := Dis.FastEntityStatePdu.rt s o
  loc s := Dis.FastEntityStatePdu.loc s
  lay o := Dis.FastEntityStatePdu.lay o
  sized o := Dis.FastEntityStatePdu.sized o
  ok_iff o := Dis.FastEntityStatePdu.ok_iff o
  canon _ h := Dis.FastEntityStatePdu.after_canon h
  post := Codec.post_live (Dis.FastEntityStatePdu.post)
  only _ s := Dis.FastEntityStatePdu.only s
  counted := by
    refine List.forall_mem_cons.2 ⟨fun o => CountField.At.signed (pre := [EntityInformationFamilyPdu.wire o.toEntityInformationFamilyPdu, [.u16 o.site], [.u16 o.application], [.u16 o.entity], [.u8 o.forceId]].flatten)
        (post := [[.u8 o.entityKind], [.u8 o.domain], [.u16 o.country], [.u8 o.category], [.u8 o.subcategory], [.u8 o.specific], [.u8 o.extra], [.u8 o.altEntityKind], [.u8 o.altDomain], [.u16 o.altCountry], [.u8 o.altCategory], [.u8 o.altSubcategory], [.u8 o.altSpecific], [.u8 o.altExtra], [.f32 o.xVelocity], [.f32 o.yVelocity], [.f32 o.zVelocity], [.f64 o.xLocation], [.f64 o.yLocation], [.f64 o.zLocation], [.f32 o.psi], [.f32 o.theta], [.f32 o.phi], [.s32 o.entityAppearance], [.u8 o.deadReckoningAlgorithm], (List.range 15).map fun i => Slot.orFail .indexError Slot.s8 o.otherParameters[i]?, [.f32 o.xAcceleration], [.f32 o.yAcceleration], [.f32 o.zAcceleration], [.f32 o.xAngularVelocity], [.f32 o.yAngularVelocity], [.f32 o.zAngularVelocity], (List.range 12).map fun i => Slot.orFail .indexError Slot.s8 o.marking[i]?, [.s32 o.capabilities], o.variableParameters.flatMap VariableParameter.wire].flatten)
        (by simp [Codec.FastEntityStatePdu, Dis.FastEntityStatePdu.wire]) (SizedL.of_eq (n := _) (SizedL.append (SizedL.of (EntityInformationFamilyPdu.lay _) (EntityInformationFamilyPdu.sized _)) <|
        SizedL.append (SizedL.of (lay_unsigned_short _) (sized_unsigned_short _)) <|
        SizedL.append (SizedL.of (lay_unsigned_short _) (sized_unsigned_short _)) <|
        SizedL.append (SizedL.of (lay_unsigned_short _) (sized_unsigned_short _)) <|
        SizedL.append (SizedL.of (lay_unsigned_byte _) (sized_unsigned_byte _)) <|
        SizedL.nil) (by rfl)) (by decide)
        (WidthL.of_eq (WidthL.append ((EntityInformationFamilyPdu.bounded _)) <|
        WidthL.append (WidthL.one) <|
        WidthL.append (WidthL.one) <|
        WidthL.append (WidthL.one) <|
        WidthL.append (WidthL.one) <|
        WidthL.nil) (by rfl)), ?_⟩
    exact fun _ h => nomatch h
  appended := by
    refine List.forall_mem_cons.2 ⟨fun s o hd hw => ?_, ?_⟩
    · simp only [Codec.FastEntityStatePdu, Dis.FastEntityStatePdu.WireOk] at hd hw ⊢
      simp_all [Dis.FastEntityStatePdu.after]
    exact fun _ h => nomatch h

theorem Codec.AcknowledgeReliablePdu.verified : Codec.AcknowledgeReliablePdu.Verified where
  rt s o _ := Dis.AcknowledgeReliablePdu.rt s o
  loc s := Dis.AcknowledgeReliablePdu.loc s
  lay o := Dis.AcknowledgeReliablePdu.lay o
  sized o := Dis.AcknowledgeReliablePdu.sized o
  ok_iff o := Dis.AcknowledgeReliablePdu.ok_iff o
  canon _ h := Dis.AcknowledgeReliablePdu.after_canon h
  post := Codec.post_plain (Dis.AcknowledgeReliablePdu.post)
  only _ s := Dis.AcknowledgeReliablePdu.only s
  counted := by
    intro c hc; cases hc
  appended := fun _ h => nomatch h

theorem Codec.StartResumeReliablePdu.verified : Codec.StartResumeReliablePdu.Verified where
  rt s o _ := Dis.StartResumeReliablePdu.rt s o
  loc s := Dis.StartResumeReliablePdu.loc s
  lay o := Dis.StartResumeReliablePdu.lay o
  sized o := Dis.StartResumeReliablePdu.sized o
  ok_iff o := Dis.StartResumeReliablePdu.ok_iff o
  canon _ h := Dis.StartResumeReliablePdu.after_canon h
  post := Codec.post_plain (Dis.StartResumeReliablePdu.post)
  only _ s := Dis.StartResumeReliablePdu.only s
  counted := by
    intro c hc; cases hc
  appended := fun _ h => nomatch h

theorem Codec.ArealObjectStatePdu.verified : Codec.ArealObjectStatePdu.Verified where
  rt s o _ := Dis.ArealObjectStatePdu.rt s o
  loc s := Dis.ArealObjectStatePdu.loc s
  lay o := Dis.ArealObjectStatePdu.lay o
  sized o := Dis.ArealObjectStatePdu.sized o
  ok_iff o := Dis.ArealObjectStatePdu.ok_iff o
  canon _ h := Dis.ArealObjectStatePdu.after_canon h
  post := Codec.post_plain (Dis.ArealObjectStatePdu.post)
  only _ s := Dis.ArealObjectStatePdu.only s
  counted := by
    refine List.forall_mem_cons.2 ⟨fun o => CountField.At.unsigned (pre := [SyntheticEnvironmentFamilyPdu.wire o.toSyntheticEnvironmentFamilyPdu, EntityIdentifier.wire o.objectID, EntityIdentifier.wire o.referencedObjectID, [.u16 o.updateNumber], [.u8 o.forceID], [.u8 o.modifications], ObjectType.wire o.objectType, [.u32 o.specificObjectAppearance], [.u16 o.generalObjectAppearance]].flatten)
        (post := [SimulationAddress.wire o.requesterID, SimulationAddress.wire o.receivingID, o.objectLocation.flatMap WorldCoordinates.wire].flatten)
        (by simp [Codec.ArealObjectStatePdu, Dis.ArealObjectStatePdu.wire]) (SizedL.of_eq (n := _) (SizedL.append (SizedL.of (SyntheticEnvironmentFamilyPdu.lay _) (SyntheticEnvironmentFamilyPdu.sized _)) <|
        SizedL.append (SizedL.of (EntityIdentifier.lay _) (EntityIdentifier.sized _)) <|
        SizedL.append (SizedL.of (EntityIdentifier.lay _) (EntityIdentifier.sized _)) <|
        SizedL.append (SizedL.of (lay_unsigned_short _) (sized_unsigned_short _)) <|
        SizedL.append (SizedL.of (lay_unsigned_byte _) (sized_unsigned_byte _)) <|
        SizedL.append (SizedL.of (lay_unsigned_byte _) (sized_unsigned_byte _)) <|
        SizedL.append (SizedL.of (ObjectType.lay _) (ObjectType.sized _)) <|
        SizedL.append (SizedL.of (lay_unsigned_int _) (sized_unsigned_int _)) <|
        SizedL.append (SizedL.of (lay_unsigned_short _) (sized_unsigned_short _)) <|
        SizedL.nil) (by rfl)) (by decide)
        (WidthL.of_eq (WidthL.append ((SyntheticEnvironmentFamilyPdu.bounded _)) <|
        WidthL.append ((EntityIdentifier.bounded _)) <|
        WidthL.append ((EntityIdentifier.bounded _)) <|
        WidthL.append (WidthL.one) <|
        WidthL.append (WidthL.one) <|
        WidthL.append (WidthL.one) <|
        WidthL.append ((ObjectType.bounded _)) <|
        WidthL.append (WidthL.one) <|
        WidthL.append (WidthL.one) <|
        WidthL.nil) (by rfl)), ?_⟩
    exact fun _ h => nomatch h
  appended := by
    refine List.forall_mem_cons.2 ⟨fun s o hd hw => ?_, ?_⟩
    · simp only [Codec.ArealObjectStatePdu, Dis.ArealObjectStatePdu.WireOk] at hd hw ⊢
      simp_all [Dis.ArealObjectStatePdu.after]
    exact fun _ h => nomatch h

theorem Codec.DataQueryReliablePdu.verified : Codec.DataQueryReliablePdu.Verified where
  rt s o _ := Dis.DataQueryReliablePdu.rt s o
  loc s := Dis.DataQueryReliablePdu.loc s
  lay o := Dis.DataQueryReliablePdu.lay o
  sized o := Dis.DataQueryReliablePdu.sized o
  ok_iff o := Dis.DataQueryReliablePdu.ok_iff o
  canon _ h := Dis.DataQueryReliablePdu.after_canon h
  post := Codec.post_plain (Dis.DataQueryReliablePdu.post)
  only _ s := Dis.DataQueryReliablePdu.only s
  counted := by
    intro c hc; cases hc
  appended := fun _ h => nomatch h

theorem Codec.MinefieldStatePdu.verified : Codec.MinefieldStatePdu.Verified where
  rt s o _ := Dis.MinefieldStatePdu.rt s o
  loc s := Dis.MinefieldStatePdu.loc s
  lay o := Dis.MinefieldStatePdu.lay o
  sized o := Dis.MinefieldStatePdu.sized o
  ok_iff o := Dis.MinefieldStatePdu.ok_iff o
  canon _ h := Dis.MinefieldStatePdu.after_canon h
  post := Codec.post_plain (Dis.MinefieldStatePdu.post)
  only _ s := Dis.MinefieldStatePdu.only s
  counted := by
    refine List.forall_mem_cons.2 ⟨fun o => CountField.At.unsigned (pre := [MinefieldFamilyPdu.wire o.toMinefieldFamilyPdu, MinefieldIdentifier.wire o.minefieldID, [.u16 o.minefieldSequence], [.u8 o.forceID]].flatten)
        (post := [EntityType.wire o.minefieldType, [.u16 (o.mineTypes.length : Int)], WorldCoordinates.wire o.minefieldLocation, EulerAngles.wire o.minefieldOrientation, [.u16 o.appearance], [.u16 o.protocolMode], o.perimeterPoints.flatMap Vector2Float.wire, o.mineTypes.flatMap EntityType.wire].flatten)
        (by simp [Codec.MinefieldStatePdu, Dis.MinefieldStatePdu.wire]) (SizedL.of_eq (n := _) (SizedL.append (SizedL.of (MinefieldFamilyPdu.lay _) (MinefieldFamilyPdu.sized _)) <|
        SizedL.append (SizedL.of (MinefieldIdentifier.lay _) (MinefieldIdentifier.sized _)) <|
        SizedL.append (SizedL.of (lay_unsigned_short _) (sized_unsigned_short _)) <|
        SizedL.append (SizedL.of (lay_unsigned_byte _) (sized_unsigned_byte _)) <|
        SizedL.nil) (by rfl)) (by decide)
        (WidthL.of_eq (WidthL.append ((MinefieldFamilyPdu.bounded _)) <|
        WidthL.append ((MinefieldIdentifier.bounded _)) <|
        WidthL.append (WidthL.one) <|
        WidthL.append (WidthL.one) <|
        WidthL.nil) (by rfl)), ?_⟩
    refine List.forall_mem_cons.2 ⟨fun o => CountField.At.unsigned (pre := [MinefieldFamilyPdu.wire o.toMinefieldFamilyPdu, MinefieldIdentifier.wire o.minefieldID, [.u16 o.minefieldSequence], [.u8 o.forceID], [.u8 (o.perimeterPoints.length : Int)], EntityType.wire o.minefieldType].flatten)
        (post := [WorldCoordinates.wire o.minefieldLocation, EulerAngles.wire o.minefieldOrientation, [.u16 o.appearance], [.u16 o.protocolMode], o.perimeterPoints.flatMap Vector2Float.wire, o.mineTypes.flatMap EntityType.wire].flatten)
        (by simp [Codec.MinefieldStatePdu, Dis.MinefieldStatePdu.wire]) (SizedL.of_eq (n := _) (SizedL.append (SizedL.of (MinefieldFamilyPdu.lay _) (MinefieldFamilyPdu.sized _)) <|
        SizedL.append (SizedL.of (MinefieldIdentifier.lay _) (MinefieldIdentifier.sized _)) <|
        SizedL.append (SizedL.of (lay_unsigned_short _) (sized_unsigned_short _)) <|
        SizedL.append (SizedL.of (lay_unsigned_byte _) (sized_unsigned_byte _)) <|
        SizedL.append (SizedL.of (lay_unsigned_byte _) (sized_unsigned_byte _)) <|
        SizedL.append (SizedL.of (EntityType.lay _) (EntityType.sized _)) <|
        SizedL.nil) (by rfl)) (by decide)
        (WidthL.of_eq (WidthL.append ((MinefieldFamilyPdu.bounded _)) <|
        WidthL.append ((MinefieldIdentifier.bounded _)) <|
        WidthL.append (WidthL.one) <|
        WidthL.append (WidthL.one) <|
        WidthL.append (WidthL.one) <|
        WidthL.append ((EntityType.bounded _)) <|
        WidthL.nil) (by rfl)), ?_⟩
    exact fun _ h => nomatch h
  appended := by
    refine List.forall_mem_cons.2 ⟨fun s o hd hw => ?_, ?_⟩
    · simp only [Codec.MinefieldStatePdu, Dis.MinefieldStatePdu.WireOk] at hd hw ⊢
      simp_all [Dis.MinefieldStatePdu.after]
    refine List.forall_mem_cons.2 ⟨fun s o hd hw => ?_, ?_⟩
    · simp only [Codec.MinefieldStatePdu, Dis.MinefieldStatePdu.WireOk] at hd hw ⊢
      simp_all [Dis.MinefieldStatePdu.after]
    exact fun _ h => nomatch h

theorem Codec.DataReliablePdu.verified : Codec.DataReliablePdu.Verified where
  rt s o _ := Dis.DataReliablePdu.rt s o
  loc s := Dis.DataReliablePdu.loc s
  lay o := Dis.DataReliablePdu.lay o
  sized o := Dis.DataReliablePdu.sized o
  ok_iff o := Dis.DataReliablePdu.ok_iff o
  canon _ h := Dis.DataReliablePdu.after_canon h
  post := Codec.post_lossy (Dis.DataReliablePdu.post)
  only _ s := Dis.DataReliablePdu.only s
  counted := by
    intro c hc; cases hc
  appended := fun _ h => nomatch h

theorem Codec.CommentPdu.verified : Codec.CommentPdu.Verified where
  rt s o _ := Dis.CommentPdu.rt s o
  loc s := Dis.CommentPdu.loc s
  lay o := Dis.CommentPdu.lay o
  sized o := Dis.CommentPdu.sized o
  ok_iff o := Dis.CommentPdu.ok_iff o
  canon _ h := Dis.CommentPdu.after_canon h
  post := Codec.post_lossy (Dis.CommentPdu.post)
  only _ s := Dis.CommentPdu.only s
  counted := by
    intro c hc; cases hc
  appended := fun _ h => nomatch h

theorem Codec.CommentReliablePdu.verified : Codec.CommentReliablePdu.Verified where
  rt s o _ := Dis.CommentReliablePdu.rt s o
  loc s := Dis.CommentReliablePdu.loc s
  lay o := Dis.CommentReliablePdu.lay o
  sized o := Dis.CommentReliablePdu.sized o
  ok_iff o := Dis.CommentReliablePdu.ok_iff o
  canon _ h := Dis.CommentReliablePdu.after_canon h
  post := Codec.post_lossy (Dis.CommentReliablePdu.post)
  only _ s := Dis.CommentReliablePdu.only s
  counted := by
    intro c hc; cases hc
  appended := fun _ h => nomatch h

theorem Codec.DetonationPdu.verified : Codec.DetonationPdu.Verified where
  rt s o _ := Dis.DetonationPdu.rt s o
  loc s := Dis.DetonationPdu.loc s
  lay o := Dis.DetonationPdu.lay o
  sized o := Dis.DetonationPdu.sized o
  ok_iff o := Dis.DetonationPdu.ok_iff o
  canon _ h := Dis.DetonationPdu.after_canon h
  post := Codec.post_plain (Dis.DetonationPdu.post)
  only _ s := Dis.DetonationPdu.only s
  counted := by
    refine List.forall_mem_cons.2 ⟨fun o => CountField.At.unsigned (pre := [WarfareFamilyPdu.wire o.toWarfareFamilyPdu, EntityIdentifier.wire o.explodingEntityID, EventIdentifier.wire o.eventID, Vector3Float.wire o.velocity, WorldCoordinates.wire o.location, MunitionDescriptor.wire o.descriptor, Vector3Float.wire o.locationInEntityCoordinates, [.u8 o.detonationResult]].flatten)
        (post := [[.u16 o.pad], o.variableParameters.flatMap VariableParameter.wire].flatten)
        (by simp [Codec.DetonationPdu, Dis.DetonationPdu.wire]) (SizedL.of_eq (n := _) (SizedL.append (SizedL.of (WarfareFamilyPdu.lay _) (WarfareFamilyPdu.sized _)) <|
        SizedL.append (SizedL.of (EntityIdentifier.lay _) (EntityIdentifier.sized _)) <|
        SizedL.append (SizedL.of (EventIdentifier.lay _) (EventIdentifier.sized _)) <|
        SizedL.append (SizedL.of (Vector3Float.lay _) (Vector3Float.sized _)) <|
        SizedL.append (SizedL.of (WorldCoordinates.lay _) (WorldCoordinates.sized _)) <|
        SizedL.append (SizedL.of (MunitionDescriptor.lay _) (MunitionDescriptor.sized _)) <|
        SizedL.append (SizedL.of (Vector3Float.lay _) (Vector3Float.sized _)) <|
        SizedL.append (SizedL.of (lay_unsigned_byte _) (sized_unsigned_byte _)) <|
        SizedL.nil) (by rfl)) (by decide)
        (WidthL.of_eq (WidthL.append ((WarfareFamilyPdu.bounded _)) <|
        WidthL.append ((EntityIdentifier.bounded _)) <|
        WidthL.append ((EventIdentifier.bounded _)) <|
        WidthL.append ((Vector3Float.bounded _)) <|
        WidthL.append ((WorldCoordinates.bounded _)) <|
        WidthL.append ((MunitionDescriptor.bounded _)) <|
        WidthL.append ((Vector3Float.bounded _)) <|
        WidthL.append (WidthL.one) <|
        WidthL.nil) (by rfl)), ?_⟩
    exact fun _ h => nomatch h
  appended := by
    refine List.forall_mem_cons.2 ⟨fun s o hd hw => ?_, ?_⟩
    · simp only [Codec.DetonationPdu, Dis.DetonationPdu.WireOk] at hd hw ⊢
      simp_all [Dis.DetonationPdu.after]
    exact fun _ h => nomatch h

theorem Codec.SetDataPdu.verified : Codec.SetDataPdu.Verified where
  rt s o _ := Dis.SetDataPdu.rt s o
  loc s := Dis.SetDataPdu.loc s
  lay o := Dis.SetDataPdu.lay o
  sized o := Dis.SetDataPdu.sized o
  ok_iff o := Dis.SetDataPdu.ok_iff o
  canon _ h := Dis.SetDataPdu.after_canon h
  post := Codec.post_lossy (Dis.SetDataPdu.post)
  only _ s := Dis.SetDataPdu.only s
  counted := by
    intro c hc; cases hc
  appended := fun _ h => nomatch h

theorem Codec.RecordQueryReliablePdu.verified : Codec.RecordQueryReliablePdu.Verified where
  rt s o _ := Dis.RecordQueryReliablePdu.rt s o
  loc s := Dis.RecordQueryReliablePdu.loc s
  lay o := Dis.RecordQueryReliablePdu.lay o
  sized o := Dis.RecordQueryReliablePdu.sized o
  ok_iff o := Dis.RecordQueryReliablePdu.ok_iff o
  canon _ h := Dis.RecordQueryReliablePdu.after_canon h
  post := Codec.post_plain (Dis.RecordQueryReliablePdu.post)
  only h := nomatch h
  counted := by
    refine List.forall_mem_cons.2 ⟨fun o => CountField.At.unsigned (pre := [SimulationManagementWithReliabilityFamilyPdu.wire o.toSimulationManagementWithReliabilityFamilyPdu, [.u32 o.requestID], [.u8 o.requiredReliabilityService], [.u16 o.pad1], [.u8 o.pad2], [.u16 o.eventType], [.u32 o.time]].flatten)
        (post := [o.recordIDs.map fun _ => .fail .attributeError].flatten)
        (by simp [Codec.RecordQueryReliablePdu, Dis.RecordQueryReliablePdu.wire]) (SizedL.of_eq (n := _) (SizedL.append (SizedL.of (SimulationManagementWithReliabilityFamilyPdu.lay _) (SimulationManagementWithReliabilityFamilyPdu.sized _)) <|
        SizedL.append (SizedL.of (lay_unsigned_int _) (sized_unsigned_int _)) <|
        SizedL.append (SizedL.of (lay_unsigned_byte _) (sized_unsigned_byte _)) <|
        SizedL.append (SizedL.of (lay_unsigned_short _) (sized_unsigned_short _)) <|
        SizedL.append (SizedL.of (lay_unsigned_byte _) (sized_unsigned_byte _)) <|
        SizedL.append (SizedL.of (lay_unsigned_short _) (sized_unsigned_short _)) <|
        SizedL.append (SizedL.of (lay_unsigned_int _) (sized_unsigned_int _)) <|
        SizedL.nil) (by rfl)) (by decide)
        (WidthL.of_eq (WidthL.append ((SimulationManagementWithReliabilityFamilyPdu.bounded _)) <|
        WidthL.append (WidthL.one) <|
        WidthL.append (WidthL.one) <|
        WidthL.append (WidthL.one) <|
        WidthL.append (WidthL.one) <|
        WidthL.append (WidthL.one) <|
        WidthL.append (WidthL.one) <|
        WidthL.nil) (by rfl)), ?_⟩
    exact fun _ h => nomatch h
  appended := by
    refine List.forall_mem_cons.2 ⟨fun s o hd hw => ?_, ?_⟩
    · simp only [Codec.RecordQueryReliablePdu, Dis.RecordQueryReliablePdu.WireOk] at hd hw ⊢
      simp_all [Dis.RecordQueryReliablePdu.after]
    exact fun _ h => nomatch h

theorem Codec.ActionResponsePdu.verified : Codec.ActionResponsePdu.Verified where
  rt s o _ := Dis.ActionResponsePdu.rt s o
  loc s := Dis.ActionResponsePdu.loc s
  lay o := Dis.ActionResponsePdu.lay o
  sized o := Dis.ActionResponsePdu.sized o
  ok_iff o := Dis.ActionResponsePdu.ok_iff o
  canon _ h := Dis.ActionResponsePdu.after_canon h
  post := Codec.post_lossy (Dis.ActionResponsePdu.post)
  only _ s := Dis.ActionResponsePdu.only s
  counted := by
    intro c hc; cases hc
  appended := fun _ h => nomatch h

theorem catalogPdus4_verified : ∀ c ∈ catalogPdus4, c.Verified := by
  intro c hc
  simp only [catalogPdus4, List.mem_cons, List.not_mem_nil, or_false] at hc
  rcases hc with rfl | rfl | rfl | rfl | rfl | rfl | rfl | rfl | rfl | rfl | rfl | rfl | rfl
  · exact Codec.FastEntityStatePdu.verified
  · exact Codec.AcknowledgeReliablePdu.verified
  · exact Codec.StartResumeReliablePdu.verified
  · exact Codec.ArealObjectStatePdu.verified
  · exact Codec.DataQueryReliablePdu.verified
  · exact Codec.MinefieldStatePdu.verified
  · exact Codec.DataReliablePdu.verified
  · exact Codec.CommentPdu.verified
  · exact Codec.CommentReliablePdu.verified
  · exact Codec.DetonationPdu.verified
  · exact Codec.SetDataPdu.verified
  · exact Codec.RecordQueryReliablePdu.verified
  · exact Codec.ActionResponsePdu.verified

theorem Codec.FirePdu.verified : Codec.FirePdu.Verified where
  rt s o _ := Dis.FirePdu.rt s o
  loc s := Dis.FirePdu.loc s
  lay o := Dis.FirePdu.lay o
  sized o := Dis.FirePdu.sized o
  ok_iff o := Dis.FirePdu.ok_iff o
  canon _ h := Dis.FirePdu.after_canon h
  post := Codec.post_plain (Dis.FirePdu.post)
  only _ s := Dis.FirePdu.only s
  counted := by
    intro c hc; cases hc
  appended := fun _ h => nomatch h

theorem Codec.ReceiverPdu.verified : Codec.ReceiverPdu.Verified where
  rt s o _ := Dis.ReceiverPdu.rt s o
  loc s := Dis.ReceiverPdu.loc s
  lay o := Dis.ReceiverPdu.lay o
  sized o := Dis.ReceiverPdu.sized o
  ok_iff o := Dis.ReceiverPdu.ok_iff o
  canon _ h := Dis.ReceiverPdu.after_canon h
  post := Codec.post_plain (Dis.ReceiverPdu.post)
  only _ s := Dis.ReceiverPdu.only s
  counted := by
    intro c hc; cases hc
  appended := fun _ h => nomatch h

theorem Codec.UaPdu.verified : Codec.UaPdu.Verified where
  rt s o _ := Dis.UaPdu.rt s o
  loc s := Dis.UaPdu.loc s
  lay o := Dis.UaPdu.lay o
  sized o := Dis.UaPdu.sized o
  ok_iff o := Dis.UaPdu.ok_iff o
  canon _ h := Dis.UaPdu.after_canon h
  post := Codec.post_plain (Dis.UaPdu.post)
  only h := nomatch h
  counted := by
    refine List.forall_mem_cons.2 ⟨fun o => CountField.At.unsigned (pre := [DistributedEmissionsFamilyPdu.wire o.toDistributedEmissionsFamilyPdu, EntityIdentifier.wire o.emittingEntityID, EventIdentifier.wire o.eventID, [.s8 o.stateChangeIndicator], [.s8 o.pad], [.u16 o.passiveParameterIndex], [.u8 o.propulsionPlantConfiguration]].flatten)
        (post := [[.u8 (o.apaData.length : Int)], [.u8 (o.emitterSystems.length : Int)], o.shaftRPMs.map fun _ => .fail .attributeError, o.apaData.map fun _ => .fail .attributeError, o.emitterSystems.map fun _ => .fail .attributeError].flatten)
        (by simp [Codec.UaPdu, Dis.UaPdu.wire]) (SizedL.of_eq (n := _) (SizedL.append (SizedL.of (DistributedEmissionsFamilyPdu.lay _) (DistributedEmissionsFamilyPdu.sized _)) <|
        SizedL.append (SizedL.of (EntityIdentifier.lay _) (EntityIdentifier.sized _)) <|
        SizedL.append (SizedL.of (EventIdentifier.lay _) (EventIdentifier.sized _)) <|
        SizedL.append (SizedL.of (lay_byte _) (sized_byte _)) <|
        SizedL.append (SizedL.of (lay_byte _) (sized_byte _)) <|
        SizedL.append (SizedL.of (lay_unsigned_short _) (sized_unsigned_short _)) <|
        SizedL.append (SizedL.of (lay_unsigned_byte _) (sized_unsigned_byte _)) <|
        SizedL.nil) (by rfl)) (by decide)
        (WidthL.of_eq (WidthL.append ((DistributedEmissionsFamilyPdu.bounded _)) <|
        WidthL.append ((EntityIdentifier.bounded _)) <|
        WidthL.append ((EventIdentifier.bounded _)) <|
        WidthL.append (WidthL.one) <|
        WidthL.append (WidthL.one) <|
        WidthL.append (WidthL.one) <|
        WidthL.append (WidthL.one) <|
        WidthL.nil) (by rfl)), ?_⟩
    refine List.forall_mem_cons.2 ⟨fun o => CountField.At.unsigned (pre := [DistributedEmissionsFamilyPdu.wire o.toDistributedEmissionsFamilyPdu, EntityIdentifier.wire o.emittingEntityID, EventIdentifier.wire o.eventID, [.s8 o.stateChangeIndicator], [.s8 o.pad], [.u16 o.passiveParameterIndex], [.u8 o.propulsionPlantConfiguration], [.u8 (o.shaftRPMs.length : Int)]].flatten)
        (post := [[.u8 (o.emitterSystems.length : Int)], o.shaftRPMs.map fun _ => .fail .attributeError, o.apaData.map fun _ => .fail .attributeError, o.emitterSystems.map fun _ => .fail .attributeError].flatten)
        (by simp [Codec.UaPdu, Dis.UaPdu.wire]) (SizedL.of_eq (n := _) (SizedL.append (SizedL.of (DistributedEmissionsFamilyPdu.lay _) (DistributedEmissionsFamilyPdu.sized _)) <|
        SizedL.append (SizedL.of (EntityIdentifier.lay _) (EntityIdentifier.sized _)) <|
        SizedL.append (SizedL.of (EventIdentifier.lay _) (EventIdentifier.sized _)) <|
        SizedL.append (SizedL.of (lay_byte _) (sized_byte _)) <|
        SizedL.append (SizedL.of (lay_byte _) (sized_byte _)) <|
        SizedL.append (SizedL.of (lay_unsigned_short _) (sized_unsigned_short _)) <|
        SizedL.append (SizedL.of (lay_unsigned_byte _) (sized_unsigned_byte _)) <|
        SizedL.append (SizedL.of (lay_unsigned_byte _) (sized_unsigned_byte _)) <|
        SizedL.nil) (by rfl)) (by decide)
        (WidthL.of_eq (WidthL.append ((DistributedEmissionsFamilyPdu.bounded _)) <|
        WidthL.append ((EntityIdentifier.bounded _)) <|
        WidthL.append ((EventIdentifier.bounded _)) <|
        WidthL.append (WidthL.one) <|
        WidthL.append (WidthL.one) <|
        WidthL.append (WidthL.one) <|
        WidthL.append (WidthL.one) <|
        WidthL.append (WidthL.one) <|
        WidthL.nil) (by rfl)), ?_⟩
    refine List.forall_mem_cons.2 ⟨fun o => CountField.At.unsigned (pre := [DistributedEmissionsFamilyPdu.wire o.toDistributedEmissionsFamilyPdu, EntityIdentifier.wire o.emittingEntityID, EventIdentifier.wire o.eventID, [.s8 o.stateChangeIndicator], [.s8 o.pad], [.u16 o.passiveParameterIndex], [.u8 o.propulsionPlantConfiguration], [.u8 (o.shaftRPMs.length : Int)], [.u8 (o.apaData.length : Int)]].flatten)
        (post := [o.shaftRPMs.map fun _ => .fail .attributeError, o.apaData.map fun _ => .fail .attributeError, o.emitterSystems.map fun _ => .fail .attributeError].flatten)
        (by simp [Codec.UaPdu, Dis.UaPdu.wire]) (SizedL.of_eq (n := _) (SizedL.append (SizedL.of (DistributedEmissionsFamilyPdu.lay _) (DistributedEmissionsFamilyPdu.sized _)) <|
        SizedL.append (SizedL.of (EntityIdentifier.lay _) (EntityIdentifier.sized _)) <|
        SizedL.append (SizedL.of (EventIdentifier.lay _) (EventIdentifier.sized _)) <|
        SizedL.append (SizedL.of (lay_byte _) (sized_byte _)) <|
        SizedL.append (SizedL.of (lay_byte _) (sized_byte _)) <|
        SizedL.append (SizedL.of (lay_unsigned_short _) (sized_unsigned_short _)) <|
        SizedL.append (SizedL.of (lay_unsigned_byte _) (sized_unsigned_byte _)) <|
        SizedL.append (SizedL.of (lay_unsigned_byte _) (sized_unsigned_byte _)) <|
        SizedL.append (SizedL.of (lay_unsigned_byte _) (sized_unsigned_byte _)) <|
        SizedL.nil) (by rfl)) (by decide)
        (WidthL.of_eq (WidthL.append ((DistributedEmissionsFamilyPdu.bounded _)) <|
        WidthL.append ((EntityIdentifier.bounded _)) <|
        WidthL.append ((EventIdentifier.bounded _)) <|
        WidthL.append (WidthL.one) <|
        WidthL.append (WidthL.one) <|
        WidthL.append (WidthL.one) <|
        WidthL.append (WidthL.one) <|
        WidthL.append (WidthL.one) <|
        WidthL.append (WidthL.one) <|
        WidthL.nil) (by rfl)), ?_⟩
    exact fun _ h => nomatch h
  appended := by
    refine List.forall_mem_cons.2 ⟨fun s o hd hw => ?_, ?_⟩
    · simp only [Codec.UaPdu, Dis.UaPdu.WireOk] at hd hw ⊢
      simp_all [Dis.UaPdu.after]
    refine List.forall_mem_cons.2 ⟨fun s o hd hw => ?_, ?_⟩
    · simp only [Codec.UaPdu, Dis.UaPdu.WireOk] at hd hw ⊢
      simp_all [Dis.UaPdu.after]
    refine List.forall_mem_cons.2 ⟨fun s o hd hw => ?_, ?_⟩
    · simp only [Codec.UaPdu, Dis.UaPdu.WireOk] at hd hw ⊢
      simp_all [Dis.UaPdu.after]
    exact fun _ h => nomatch h

theorem Codec.SignalPdu.verified : Codec.SignalPdu.Verified where
  rt s o _ := Dis.SignalPdu.rt s o
  loc s := Dis.SignalPdu.loc s
  lay o := Dis.SignalPdu.lay o
  sized o := Dis.SignalPdu.sized o
  ok_iff o := Dis.SignalPdu.ok_iff o
  canon _ h := Dis.SignalPdu.after_canon h
  post := Codec.post_lossy (Dis.SignalPdu.post)
  only _ s := Dis.SignalPdu.only s
  counted := by
    refine List.forall_mem_cons.2 ⟨fun o => CountField.At.unsigned (pre := [RadioCommunicationsFamilyPdu.wire o.toRadioCommunicationsFamilyPdu, EntityIdentifier.wire o.entityID, [.u16 o.radioID], [.u16 o.encodingScheme], [.u16 o.tdlType], [.u32 o.sampleRate]].flatten)
        (post := [[.u16 o.samples], o.data.map Slot.u8].flatten)
        (by simp [Codec.SignalPdu, Dis.SignalPdu.wire, Int.mul_comm]) (SizedL.of_eq (n := _) (SizedL.append (SizedL.of (RadioCommunicationsFamilyPdu.lay _) (RadioCommunicationsFamilyPdu.sized _)) <|
        SizedL.append (SizedL.of (EntityIdentifier.lay _) (EntityIdentifier.sized _)) <|
        SizedL.append (SizedL.of (lay_unsigned_short _) (sized_unsigned_short _)) <|
        SizedL.append (SizedL.of (lay_unsigned_short _) (sized_unsigned_short _)) <|
        SizedL.append (SizedL.of (lay_unsigned_short _) (sized_unsigned_short _)) <|
        SizedL.append (SizedL.of (lay_unsigned_int _) (sized_unsigned_int _)) <|
        SizedL.nil) (by rfl)) (by decide)
        (WidthL.of_eq (WidthL.append ((RadioCommunicationsFamilyPdu.bounded _)) <|
        WidthL.append ((EntityIdentifier.bounded _)) <|
        WidthL.append (WidthL.one) <|
        WidthL.append (WidthL.one) <|
        WidthL.append (WidthL.one) <|
        WidthL.append (WidthL.one) <|
        WidthL.nil) (by rfl)), ?_⟩
    exact fun _ h => nomatch h
  appended := by
    refine List.forall_mem_cons.2 ⟨fun s o hd hw => ?_, ?_⟩
    · simp only [Codec.SignalPdu, Dis.SignalPdu.WireOk] at hd hw ⊢
      simp_all [Dis.SignalPdu.after]
    exact fun _ h => nomatch h

theorem Codec.RemoveEntityReliablePdu.verified : Codec.RemoveEntityReliablePdu.Verified where
  rt s o _ := Dis.RemoveEntityReliablePdu.rt s o
  loc s := Dis.RemoveEntityReliablePdu.loc s
  lay o := Dis.RemoveEntityReliablePdu.lay o
  sized o := Dis.RemoveEntityReliablePdu.sized o
  ok_iff o := Dis.RemoveEntityReliablePdu.ok_iff o
  canon _ h := Dis.RemoveEntityReliablePdu.after_canon h
  post := Codec.post_plain (Dis.RemoveEntityReliablePdu.post)
  only _ s := Dis.RemoveEntityReliablePdu.only s
  counted := by
    intro c hc; cases hc
  appended := fun _ h => nomatch h

theorem Codec.SeesPdu.verified : Codec.SeesPdu.Verified where
  rt s o h := Dis.SeesPdu.rt s o h
  loc s := Dis.SeesPdu.loc s
  lay o := Dis.SeesPdu.lay o
  sized o := Dis.SeesPdu.sized o
  ok_iff o := Dis.SeesPdu.ok_iff o
  canon _ h := Dis.SeesPdu.after_canon h
  post := Codec.post_plain (Dis.SeesPdu.post)
  only h := nomatch h
  counted := by
    refine List.forall_mem_cons.2 ⟨fun o => CountField.At.unsigned (pre := [DistributedEmissionsFamilyPdu.wire o.toDistributedEmissionsFamilyPdu, EntityIdentifier.wire o.orginatingEntityID, [.u16 o.infraredSignatureRepresentationIndex], [.u16 o.acousticSignatureRepresentationIndex], [.u16 o.radarCrossSectionSignatureRepresentationIndex]].flatten)
        (post := [[.u16 (o.vectoringSystemData.length : Int)], o.propulsionSystemData.flatMap PropulsionSystemData.wire, o.vectoringSystemData.flatMap VectoringNozzleSystem.wire].flatten)
        (by simp [Codec.SeesPdu, Dis.SeesPdu.wire]) (SizedL.of_eq (n := _) (SizedL.append (SizedL.of (DistributedEmissionsFamilyPdu.lay _) (DistributedEmissionsFamilyPdu.sized _)) <|
        SizedL.append (SizedL.of (EntityIdentifier.lay _) (EntityIdentifier.sized _)) <|
        SizedL.append (SizedL.of (lay_unsigned_short _) (sized_unsigned_short _)) <|
        SizedL.append (SizedL.of (lay_unsigned_short _) (sized_unsigned_short _)) <|
        SizedL.append (SizedL.of (lay_unsigned_short _) (sized_unsigned_short _)) <|
        SizedL.nil) (by rfl)) (by decide)
        (WidthL.of_eq (WidthL.append ((DistributedEmissionsFamilyPdu.bounded _)) <|
        WidthL.append ((EntityIdentifier.bounded _)) <|
        WidthL.append (WidthL.one) <|
        WidthL.append (WidthL.one) <|
        WidthL.append (WidthL.one) <|
        WidthL.nil) (by rfl)), ?_⟩
    refine List.forall_mem_cons.2 ⟨fun o => CountField.At.unsigned (pre := [DistributedEmissionsFamilyPdu.wire o.toDistributedEmissionsFamilyPdu, EntityIdentifier.wire o.orginatingEntityID, [.u16 o.infraredSignatureRepresentationIndex], [.u16 o.acousticSignatureRepresentationIndex], [.u16 o.radarCrossSectionSignatureRepresentationIndex], [.u16 (o.propulsionSystemData.length : Int)]].flatten)
        (post := [o.propulsionSystemData.flatMap PropulsionSystemData.wire, o.vectoringSystemData.flatMap VectoringNozzleSystem.wire].flatten)
        (by simp [Codec.SeesPdu, Dis.SeesPdu.wire]) (SizedL.of_eq (n := _) (SizedL.append (SizedL.of (DistributedEmissionsFamilyPdu.lay _) (DistributedEmissionsFamilyPdu.sized _)) <|
        SizedL.append (SizedL.of (EntityIdentifier.lay _) (EntityIdentifier.sized _)) <|
        SizedL.append (SizedL.of (lay_unsigned_short _) (sized_unsigned_short _)) <|
        SizedL.append (SizedL.of (lay_unsigned_short _) (sized_unsigned_short _)) <|
        SizedL.append (SizedL.of (lay_unsigned_short _) (sized_unsigned_short _)) <|
        SizedL.append (SizedL.of (lay_unsigned_short _) (sized_unsigned_short _)) <|
        SizedL.nil) (by rfl)) (by decide)
        (WidthL.of_eq (WidthL.append ((DistributedEmissionsFamilyPdu.bounded _)) <|
        WidthL.append ((EntityIdentifier.bounded _)) <|
        WidthL.append (WidthL.one) <|
        WidthL.append (WidthL.one) <|
        WidthL.append (WidthL.one) <|
        WidthL.append (WidthL.one) <|
        WidthL.nil) (by rfl)), ?_⟩
    exact fun _ h => nomatch h
  appended := by
    refine List.forall_mem_cons.2 ⟨fun s o hd hw => ?_, ?_⟩
    · simp only [Codec.SeesPdu, Dis.SeesPdu.Decodable, Dis.SeesPdu.WireOk] at hd hw ⊢
      simp_all [Dis.SeesPdu.after]
    refine List.forall_mem_cons.2 ⟨fun s o hd hw => ?_, ?_⟩
    · simp only [Codec.SeesPdu, Dis.SeesPdu.Decodable, Dis.SeesPdu.WireOk] at hd hw ⊢
      simp_all [Dis.SeesPdu.after]
    exact fun _ h => nomatch h

theorem Codec.CreateEntityReliablePdu.verified : Codec.CreateEntityReliablePdu.Verified where
  rt s o _ := Dis.CreateEntityReliablePdu.rt s o
  loc s := Dis.CreateEntityReliablePdu.loc s
  lay o := Dis.CreateEntityReliablePdu.lay o
  sized o := Dis.CreateEntityReliablePdu.sized o
  ok_iff o := Dis.CreateEntityReliablePdu.ok_iff o
  canon _ h := Dis.CreateEntityReliablePdu.after_canon h
  post := Codec.post_plain (Dis.CreateEntityReliablePdu.post)
  only _ s := Dis.CreateEntityReliablePdu.only s
  counted := by
    intro c hc; cases hc
  appended := fun _ h => nomatch h

theorem Codec.StopFreezeReliablePdu.verified : Codec.StopFreezeReliablePdu.Verified where
  rt s o _ := Dis.StopFreezeReliablePdu.rt s o
  loc s := Dis.StopFreezeReliablePdu.loc s
  lay o := Dis.StopFreezeReliablePdu.lay o
  sized o := Dis.StopFreezeReliablePdu.sized o
  ok_iff o := Dis.StopFreezeReliablePdu.ok_iff o
  canon _ h := Dis.StopFreezeReliablePdu.after_canon h
  post := Codec.post_plain (Dis.StopFreezeReliablePdu.post)
  only _ s := Dis.StopFreezeReliablePdu.only s
  counted := by
    intro c hc; cases hc
  appended := fun _ h => nomatch h

theorem Codec.EventReportReliablePdu.verified : Codec.EventReportReliablePdu.Verified where
  rt s o _ := Dis.EventReportReliablePdu.rt s o
  loc s := Dis.EventReportReliablePdu.loc s
  lay o := Dis.EventReportReliablePdu.lay o
  sized o := Dis.EventReportReliablePdu.sized o
  ok_iff o := Dis.EventReportReliablePdu.ok_iff o
  canon _ h := Dis.EventReportReliablePdu.after_canon h
  post := Codec.post_lossy (Dis.EventReportReliablePdu.post)
  only _ s := Dis.EventReportReliablePdu.only s
  counted := by
    intro c hc; cases hc
  appended := fun _ h => nomatch h

theorem Codec.MinefieldResponseNackPdu.verified : Codec.MinefieldResponseNackPdu.Verified where
  rt s o _ := Dis.MinefieldResponseNackPdu.rt s o
  loc s := Dis.MinefieldResponseNackPdu.loc s
  lay o := Dis.MinefieldResponseNackPdu.lay o
  sized o := Dis.MinefieldResponseNackPdu.sized o
  ok_iff o := Dis.MinefieldResponseNackPdu.ok_iff o
  canon _ h := Dis.MinefieldResponseNackPdu.after_canon h
  post := Codec.post_plain (Dis.MinefieldResponseNackPdu.post)
  only h := nomatch h
  counted := by
    refine List.forall_mem_cons.2 ⟨fun o => CountField.At.unsigned (pre := [MinefieldFamilyPdu.wire o.toMinefieldFamilyPdu, EntityIdentifier.wire o.minefieldID, EntityIdentifier.wire o.requestingEntityID, [.u8 o.requestID]].flatten)
        (post := [o.missingPduSequenceNumbers.map fun _ => .fail .attributeError].flatten)
        (by simp [Codec.MinefieldResponseNackPdu, Dis.MinefieldResponseNackPdu.wire]) (SizedL.of_eq (n := _) (SizedL.append (SizedL.of (MinefieldFamilyPdu.lay _) (MinefieldFamilyPdu.sized _)) <|
        SizedL.append (SizedL.of (EntityIdentifier.lay _) (EntityIdentifier.sized _)) <|
        SizedL.append (SizedL.of (EntityIdentifier.lay _) (EntityIdentifier.sized _)) <|
        SizedL.append (SizedL.of (lay_unsigned_byte _) (sized_unsigned_byte _)) <|
        SizedL.nil) (by rfl)) (by decide)
        (WidthL.of_eq (WidthL.append ((MinefieldFamilyPdu.bounded _)) <|
        WidthL.append ((EntityIdentifier.bounded _)) <|
        WidthL.append ((EntityIdentifier.bounded _)) <|
        WidthL.append (WidthL.one) <|
        WidthL.nil) (by rfl)), ?_⟩
    exact fun _ h => nomatch h
  appended := by
    refine List.forall_mem_cons.2 ⟨fun s o hd hw => ?_, ?_⟩
    · simp only [Codec.MinefieldResponseNackPdu, Dis.MinefieldResponseNackPdu.WireOk] at hd hw ⊢
      simp_all [Dis.MinefieldResponseNackPdu.after]
    exact fun _ h => nomatch h

theorem Codec.ActionResponseReliablePdu.verified : Codec.ActionResponseReliablePdu.Verified where
  rt s o _ := Dis.ActionResponseReliablePdu.rt s o
  loc s := Dis.ActionResponseReliablePdu.loc s
  lay o := Dis.ActionResponseReliablePdu.lay o
  sized o := Dis.ActionResponseReliablePdu.sized o
  ok_iff o := Dis.ActionResponseReliablePdu.ok_iff o
  canon _ h := Dis.ActionResponseReliablePdu.after_canon h
  post := Codec.post_lossy (Dis.ActionResponseReliablePdu.post)
  only _ s := Dis.ActionResponseReliablePdu.only s
  counted := by
    intro c hc; cases hc
  appended := fun _ h => nomatch h

theorem Codec.IsPartOfPdu.verified : Codec.IsPartOfPdu.Verified where
  rt s o _ := Dis.IsPartOfPdu.rt s o
  loc s := Dis.IsPartOfPdu.loc s
  lay o := Dis.IsPartOfPdu.lay o
  sized o := Dis.IsPartOfPdu.sized o
  ok_iff o := Dis.IsPartOfPdu.ok_iff o
  canon _ h := Dis.IsPartOfPdu.after_canon h
  post := Codec.post_plain (Dis.IsPartOfPdu.post)
  only _ s := Dis.IsPartOfPdu.only s
  counted := by
    intro c hc; cases hc
  appended := fun _ h => nomatch h

theorem Codec.AggregateStatePdu.verified : Codec.AggregateStatePdu.Verified where
  rt s o _ := Dis.AggregateStatePdu.rt s o
  loc s := Dis.AggregateStatePdu.loc s
  lay o := Dis.AggregateStatePdu.lay o
  sized o := Dis.AggregateStatePdu.sized o
  ok_iff o := Dis.AggregateStatePdu.ok_iff o
  canon _ h := Dis.AggregateStatePdu.after_canon h
  post := Codec.post_live_lossy (Dis.AggregateStatePdu.post)
  only h := nomatch h
  counted := by
    refine List.forall_mem_cons.2 ⟨fun o => CountField.At.unsigned (pre := [EntityManagementFamilyPdu.wire o.toEntityManagementFamilyPdu, AggregateIdentifier.wire o.aggregateID, [.u8 o.forceID], [.u8 o.aggregateState], AggregateType.wire o.aggregateType, [.u32 o.formation], AggregateMarking.wire o.aggregateMarking, Vector3Float.wire o.dimensions, EulerAngles.wire o.orientation, Vector3Float.wire o.centerOfMass, WorldCoordinates.wire o.velocity].flatten)
        (post := [[.u16 (o.entityIDs.length : Int)], [.u16 (o.silentAggregateSystems.length : Int)], [.u16 (o.silentEntitySystems.length : Int)], o.aggregateIDs.flatMap AggregateIdentifier.wire, o.entityIDs.flatMap EntityIdentifier.wire, o.silentAggregateSystems.flatMap SilentAggregateSystem.wire, o.silentEntitySystems.flatMap SilentEntitySystem.wire, [.u32 (o.variableDatumRecords.length : Int)], o.variableDatumRecords.flatMap VariableDatum.wire].flatten)
        (by simp [Codec.AggregateStatePdu, Dis.AggregateStatePdu.wire]) (SizedL.of_eq (n := _) (SizedL.append (SizedL.of (EntityManagementFamilyPdu.lay _) (EntityManagementFamilyPdu.sized _)) <|
        SizedL.append (SizedL.of (AggregateIdentifier.lay _) (AggregateIdentifier.sized _)) <|
        SizedL.append (SizedL.of (lay_unsigned_byte _) (sized_unsigned_byte _)) <|
        SizedL.append (SizedL.of (lay_unsigned_byte _) (sized_unsigned_byte _)) <|
        SizedL.append (SizedL.of (AggregateType.lay _) (AggregateType.sized _)) <|
        SizedL.append (SizedL.of (lay_unsigned_int _) (sized_unsigned_int _)) <|
        SizedL.append (SizedL.of (AggregateMarking.lay _) (AggregateMarking.sized _)) <|
        SizedL.append (SizedL.of (Vector3Float.lay _) (Vector3Float.sized _)) <|
        SizedL.append (SizedL.of (EulerAngles.lay _) (EulerAngles.sized _)) <|
        SizedL.append (SizedL.of (Vector3Float.lay _) (Vector3Float.sized _)) <|
        SizedL.append (SizedL.of (WorldCoordinates.lay _) (WorldCoordinates.sized _)) <|
        SizedL.nil) (by rfl)) (by decide)
        (WidthL.of_eq (WidthL.append ((EntityManagementFamilyPdu.bounded _)) <|
        WidthL.append ((AggregateIdentifier.bounded _)) <|
        WidthL.append (WidthL.one) <|
        WidthL.append (WidthL.one) <|
        WidthL.append ((AggregateType.bounded _)) <|
        WidthL.append (WidthL.one) <|
        WidthL.append ((AggregateMarking.bounded _)) <|
        WidthL.append ((Vector3Float.bounded _)) <|
        WidthL.append ((EulerAngles.bounded _)) <|
        WidthL.append ((Vector3Float.bounded _)) <|
        WidthL.append ((WorldCoordinates.bounded _)) <|
        WidthL.nil) (by rfl)), ?_⟩
    refine List.forall_mem_cons.2 ⟨fun o => CountField.At.unsigned (pre := [EntityManagementFamilyPdu.wire o.toEntityManagementFamilyPdu, AggregateIdentifier.wire o.aggregateID, [.u8 o.forceID], [.u8 o.aggregateState], AggregateType.wire o.aggregateType, [.u32 o.formation], AggregateMarking.wire o.aggregateMarking, Vector3Float.wire o.dimensions, EulerAngles.wire o.orientation, Vector3Float.wire o.centerOfMass, WorldCoordinates.wire o.velocity, [.u16 (o.aggregateIDs.length : Int)]].flatten)
        (post := [[.u16 (o.silentAggregateSystems.length : Int)], [.u16 (o.silentEntitySystems.length : Int)], o.aggregateIDs.flatMap AggregateIdentifier.wire, o.entityIDs.flatMap EntityIdentifier.wire, o.silentAggregateSystems.flatMap SilentAggregateSystem.wire, o.silentEntitySystems.flatMap SilentEntitySystem.wire, [.u32 (o.variableDatumRecords.length : Int)], o.variableDatumRecords.flatMap VariableDatum.wire].flatten)
        (by simp [Codec.AggregateStatePdu, Dis.AggregateStatePdu.wire]) (SizedL.of_eq (n := _) (SizedL.append (SizedL.of (EntityManagementFamilyPdu.lay _) (EntityManagementFamilyPdu.sized _)) <|
        SizedL.append (SizedL.of (AggregateIdentifier.lay _) (AggregateIdentifier.sized _)) <|
        SizedL.append (SizedL.of (lay_unsigned_byte _) (sized_unsigned_byte _)) <|
        SizedL.append (SizedL.of (lay_unsigned_byte _) (sized_unsigned_byte _)) <|
        SizedL.append (SizedL.of (AggregateType.lay _) (AggregateType.sized _)) <|
        SizedL.append (SizedL.of (lay_unsigned_int _) (sized_unsigned_int _)) <|
        SizedL.append (SizedL.of (AggregateMarking.lay _) (AggregateMarking.sized _)) <|
        SizedL.append (SizedL.of (Vector3Float.lay _) (Vector3Float.sized _)) <|
        SizedL.append (SizedL.of (EulerAngles.lay _) (EulerAngles.sized _)) <|
        SizedL.append (SizedL.of (Vector3Float.lay _) (Vector3Float.sized _)) <|
        SizedL.append (SizedL.of (WorldCoordinates.lay _) (WorldCoordinates.sized _)) <|
        SizedL.append (SizedL.of (lay_unsigned_short _) (sized_unsigned_short _)) <|
        SizedL.nil) (by rfl)) (by decide)
        (WidthL.of_eq (WidthL.append ((EntityManagementFamilyPdu.bounded _)) <|
        WidthL.append ((AggregateIdentifier.bounded _)) <|
        WidthL.append (WidthL.one) <|
        WidthL.append (WidthL.one) <|
        WidthL.append ((AggregateType.bounded _)) <|
        WidthL.append (WidthL.one) <|
        WidthL.append ((AggregateMarking.bounded _)) <|
        WidthL.append ((Vector3Float.bounded _)) <|
        WidthL.append ((EulerAngles.bounded _)) <|
        WidthL.append ((Vector3Float.bounded _)) <|
        WidthL.append ((WorldCoordinates.bounded _)) <|
        WidthL.append (WidthL.one) <|
        WidthL.nil) (by rfl)), ?_⟩
    refine List.forall_mem_cons.2 ⟨fun o => CountField.At.unsigned (pre := [EntityManagementFamilyPdu.wire o.toEntityManagementFamilyPdu, AggregateIdentifier.wire o.aggregateID, [.u8 o.forceID], [.u8 o.aggregateState], AggregateType.wire o.aggregateType, [.u32 o.formation], AggregateMarking.wire o.aggregateMarking, Vector3Float.wire o.dimensions, EulerAngles.wire o.orientation, Vector3Float.wire o.centerOfMass, WorldCoordinates.wire o.velocity, [.u16 (o.aggregateIDs.length : Int)], [.u16 (o.entityIDs.length : Int)]].flatten)
        (post := [[.u16 (o.silentEntitySystems.length : Int)], o.aggregateIDs.flatMap AggregateIdentifier.wire, o.entityIDs.flatMap EntityIdentifier.wire, o.silentAggregateSystems.flatMap SilentAggregateSystem.wire, o.silentEntitySystems.flatMap SilentEntitySystem.wire, [.u32 (o.variableDatumRecords.length : Int)], o.variableDatumRecords.flatMap VariableDatum.wire].flatten)
        (by simp [Codec.AggregateStatePdu, Dis.AggregateStatePdu.wire]) (SizedL.of_eq (n := _) (SizedL.append (SizedL.of (EntityManagementFamilyPdu.lay _) (EntityManagementFamilyPdu.sized _)) <|
        SizedL.append (SizedL.of (AggregateIdentifier.lay _) (AggregateIdentifier.sized _)) <|
        SizedL.append (SizedL.of (lay_unsigned_byte _) (sized_unsigned_byte _)) <|
        SizedL.append (SizedL.of (lay_unsigned_byte _) (sized_unsigned_byte _)) <|
        SizedL.append (SizedL.of (AggregateType.lay _) (AggregateType.sized _)) <|
        SizedL.append (SizedL.of (lay_unsigned_int _) (sized_unsigned_int _)) <|
        SizedL.append (SizedL.of (AggregateMarking.lay _) (AggregateMarking.sized _)) <|
        SizedL.append (SizedL.of (Vector3Float.lay _) (Vector3Float.sized _)) <|
        SizedL.append (SizedL.of (EulerAngles.lay _) (EulerAngles.sized _)) <|
        SizedL.append (SizedL.of (Vector3Float.lay _) (Vector3Float.sized _)) <|
        SizedL.append (SizedL.of (WorldCoordinates.lay _) (WorldCoordinates.sized _)) <|
        SizedL.append (SizedL.of (lay_unsigned_short _) (sized_unsigned_short _)) <|
        SizedL.append (SizedL.of (lay_unsigned_short _) (sized_unsigned_short _)) <|
        SizedL.nil) (by rfl)) (by decide)
        (WidthL.of_eq (WidthL.append ((EntityManagementFamilyPdu.bounded _)) <|
        WidthL.append ((AggregateIdentifier.bounded _)) <|
        WidthL.append (WidthL.one) <|
        WidthL.append (WidthL.one) <|
        WidthL.append ((AggregateType.bounded _)) <|
        WidthL.append (WidthL.one) <|
        WidthL.append ((AggregateMarking.bounded _)) <|
        WidthL.append ((Vector3Float.bounded _)) <|
        WidthL.append ((EulerAngles.bounded _)) <|
        WidthL.append ((Vector3Float.bounded _)) <|
        WidthL.append ((WorldCoordinates.bounded _)) <|
        WidthL.append (WidthL.one) <|
        WidthL.append (WidthL.one) <|
        WidthL.nil) (by rfl)), ?_⟩
    refine List.forall_mem_cons.2 ⟨fun o => CountField.At.unsigned (pre := [EntityManagementFamilyPdu.wire o.toEntityManagementFamilyPdu, AggregateIdentifier.wire o.aggregateID, [.u8 o.forceID], [.u8 o.aggregateState], AggregateType.wire o.aggregateType, [.u32 o.formation], AggregateMarking.wire o.aggregateMarking, Vector3Float.wire o.dimensions, EulerAngles.wire o.orientation, Vector3Float.wire o.centerOfMass, WorldCoordinates.wire o.velocity, [.u16 (o.aggregateIDs.length : Int)], [.u16 (o.entityIDs.length : Int)], [.u16 (o.silentAggregateSystems.length : Int)]].flatten)
        (post := [o.aggregateIDs.flatMap AggregateIdentifier.wire, o.entityIDs.flatMap EntityIdentifier.wire, o.silentAggregateSystems.flatMap SilentAggregateSystem.wire, o.silentEntitySystems.flatMap SilentEntitySystem.wire, [.u32 (o.variableDatumRecords.length : Int)], o.variableDatumRecords.flatMap VariableDatum.wire].flatten)
        (by simp [Codec.AggregateStatePdu, Dis.AggregateStatePdu.wire]) (SizedL.of_eq (n := _) (SizedL.append (SizedL.of (EntityManagementFamilyPdu.lay _) (EntityManagementFamilyPdu.sized _)) <|
        SizedL.append (SizedL.of (AggregateIdentifier.lay _) (AggregateIdentifier.sized _)) <|
        SizedL.append (SizedL.of (lay_unsigned_byte _) (sized_unsigned_byte _)) <|
        SizedL.append (SizedL.of (lay_unsigned_byte _) (sized_unsigned_byte _)) <|
        SizedL.append (SizedL.of (AggregateType.lay _) (AggregateType.sized _)) <|
        SizedL.append (SizedL.of (lay_unsigned_int _) (sized_unsigned_int _)) <|
        SizedL.append (SizedL.of (AggregateMarking.lay _) (AggregateMarking.sized _)) <|
        SizedL.append (SizedL.of (Vector3Float.lay _) (Vector3Float.sized _)) <|
        SizedL.append (SizedL.of (EulerAngles.lay _) (EulerAngles.sized _)) <|
        SizedL.append (SizedL.of (Vector3Float.lay _) (Vector3Float.sized _)) <|
        SizedL.append (SizedL.of (WorldCoordinates.lay _) (WorldCoordinates.sized _)) <|
        SizedL.append (SizedL.of (lay_unsigned_short _) (sized_unsigned_short _)) <|
        SizedL.append (SizedL.of (lay_unsigned_short _) (sized_unsigned_short _)) <|
        SizedL.append (SizedL.of (lay_unsigned_short _) (sized_unsigned_short _)) <|
        SizedL.nil) (by rfl)) (by decide)
        (WidthL.of_eq (WidthL.append ((EntityManagementFamilyPdu.bounded _)) <|
        WidthL.append ((AggregateIdentifier.bounded _)) <|
        WidthL.append (WidthL.one) <|
        WidthL.append (WidthL.one) <|
        WidthL.append ((AggregateType.bounded _)) <|
        WidthL.append (WidthL.one) <|
        WidthL.append ((AggregateMarking.bounded _)) <|
        WidthL.append ((Vector3Float.bounded _)) <|
        WidthL.append ((EulerAngles.bounded _)) <|
        WidthL.append ((Vector3Float.bounded _)) <|
        WidthL.append ((WorldCoordinates.bounded _)) <|
        WidthL.append (WidthL.one) <|
        WidthL.append (WidthL.one) <|
        WidthL.append (WidthL.one) <|
        WidthL.nil) (by rfl)), ?_⟩
    exact fun _ h => nomatch h
  appended := by
    refine List.forall_mem_cons.2 ⟨fun s o hd hw => ?_, ?_⟩
    · simp only [Codec.AggregateStatePdu, Dis.AggregateStatePdu.WireOk] at hd hw ⊢
      simp_all [Dis.AggregateStatePdu.after]
    refine List.forall_mem_cons.2 ⟨fun s o hd hw => ?_, ?_⟩
    · simp only [Codec.AggregateStatePdu, Dis.AggregateStatePdu.WireOk] at hd hw ⊢
      simp_all [Dis.AggregateStatePdu.after]
    refine List.forall_mem_cons.2 ⟨fun s o hd hw => ?_, ?_⟩
    · simp only [Codec.AggregateStatePdu, Dis.AggregateStatePdu.WireOk] at hd hw ⊢
      simp_all [Dis.AggregateStatePdu.after]
    refine List.forall_mem_cons.2 ⟨fun s o hd hw => ?_, ?_⟩
    · simp only [Codec.AggregateStatePdu, Dis.AggregateStatePdu.WireOk] at hd hw ⊢
      simp_all [Dis.AggregateStatePdu.after]
    exact fun _ h => nomatch h

theorem catalogPdus5_verified : ∀ c ∈ catalogPdus5, c.Verified := by
  intro c hc
  simp only [catalogPdus5, List.mem_cons, List.not_mem_nil, or_false] at hc
  rcases hc with rfl | rfl | rfl | rfl | rfl | rfl | rfl | rfl | rfl | rfl | rfl | rfl | rfl
  · exact Codec.FirePdu.verified
  · exact Codec.ReceiverPdu.verified
  · exact Codec.UaPdu.verified
  · exact Codec.SignalPdu.verified
  · exact Codec.RemoveEntityReliablePdu.verified
  · exact Codec.SeesPdu.verified
  · exact Codec.CreateEntityReliablePdu.verified
  · exact Codec.StopFreezeReliablePdu.verified
  · exact Codec.EventReportReliablePdu.verified
  · exact Codec.MinefieldResponseNackPdu.verified
  · exact Codec.ActionResponseReliablePdu.verified
  · exact Codec.IsPartOfPdu.verified
  · exact Codec.AggregateStatePdu.verified

theorem Codec.BeamAntennaPattern.verified : Codec.BeamAntennaPattern.Verified where
  rt s o _ := Dis.BeamAntennaPattern.rt (some 40) (by intro n h; cases h; decide) s o
  loc s := Dis.BeamAntennaPattern.loc (some 40) s
  lay o := Dis.BeamAntennaPattern.lay o
  sized o := Dis.BeamAntennaPattern.sized o
  ok_iff o := Dis.BeamAntennaPattern.ok_iff o
  canon _ h := Dis.BeamAntennaPattern.after_canon h
  post := Codec.post_plain (Dis.BeamAntennaPattern.post (some 40))
  only h := nomatch h
  counted := by
    intro c hc; cases hc
  appended := fun _ h => nomatch h

theorem Codec.SpreadSpectrum.verified : Codec.SpreadSpectrum.Verified where
  rt s o _ := Dis.SpreadSpectrum.rt s o
  loc s := Dis.SpreadSpectrum.loc s
  lay o := Dis.SpreadSpectrum.lay o
  sized o := Dis.SpreadSpectrum.sized o
  ok_iff o := Dis.SpreadSpectrum.ok_iff o
  canon _ h := Dis.SpreadSpectrum.after_canon h
  post := Codec.post_lossy (Dis.SpreadSpectrum.post)
  only h := nomatch h
  counted := by
    intro c hc; cases hc
  appended := fun _ h => nomatch h

theorem Codec.ModulationType.verified : Codec.ModulationType.Verified where
  rt s o _ := Dis.ModulationType.rt s o
  loc s := Dis.ModulationType.loc s
  lay o := Dis.ModulationType.lay o
  sized o := Dis.ModulationType.sized o
  ok_iff o := Dis.ModulationType.ok_iff o
  canon _ h := Dis.ModulationType.after_canon h
  post := Codec.post_lossy (Dis.ModulationType.post)
  only h := nomatch h
  counted := by
    intro c hc; cases hc
  appended := fun _ h => nomatch h

theorem Codec.NetId.verified : Codec.NetId.Verified where
  rt s o _ := Dis.NetId.rt s o
  loc s := Dis.NetId.loc s
  lay o := Dis.NetId.lay o
  sized o := Dis.NetId.sized o
  ok_iff o := Dis.NetId.ok_iff o
  canon _ h := Dis.NetId.after_canon (s := Dis.NetId.init) h
  post := Codec.post_plain (Dis.NetId.post)
  only h := nomatch h
  counted := by
    intro c hc; cases hc
  appended := fun _ h => nomatch h

theorem Codec.BasicHaveQuickMP.verified : Codec.BasicHaveQuickMP.Verified where
  rt s o _ := Dis.BasicHaveQuickMP.rt none (by intro n h; cases h) s o
  loc s := Dis.BasicHaveQuickMP.loc none s
  lay o := Dis.BasicHaveQuickMP.lay o
  sized o := Dis.BasicHaveQuickMP.sized o
  ok_iff o := Dis.BasicHaveQuickMP.ok_iff o
  canon _ h := Dis.BasicHaveQuickMP.after_canon h
  post := Codec.post_plain (Dis.BasicHaveQuickMP.post none)
  only h := nomatch h
  counted := by
    intro c hc; cases hc
  appended := fun _ h => nomatch h

theorem Codec.CCTTSincgarsMP.verified : Codec.CCTTSincgarsMP.Verified where
  rt s o _ := Dis.CCTTSincgarsMP.rt none (by intro n h; cases h) s o
  loc s := Dis.CCTTSincgarsMP.loc none s
  lay o := Dis.CCTTSincgarsMP.lay o
  sized o := Dis.CCTTSincgarsMP.sized o
  ok_iff o := Dis.CCTTSincgarsMP.ok_iff o
  canon _ h := Dis.CCTTSincgarsMP.after_canon h
  post := Codec.post_plain (Dis.CCTTSincgarsMP.post none)
  only h := nomatch h
  counted := by
    intro c hc; cases hc
  appended := fun _ h => nomatch h

theorem catalogRadio_verified : ∀ c ∈ catalogRadio, c.Verified := by
  intro c hc
  simp only [catalogRadio, List.mem_cons, List.not_mem_nil, or_false] at hc
  rcases hc with rfl | rfl | rfl | rfl | rfl | rfl
  · exact Codec.BeamAntennaPattern.verified
  · exact Codec.SpreadSpectrum.verified
  · exact Codec.ModulationType.verified
  · exact Codec.NetId.verified
  · exact Codec.BasicHaveQuickMP.verified
  · exact Codec.CCTTSincgarsMP.verified

theorem Codec.DEFireFlags.verified : Codec.DEFireFlags.Verified where
  rt s o _ := Dis.DEFireFlags.rt s o
  loc s := Dis.DEFireFlags.loc s
  lay o := Dis.DEFireFlags.lay o
  sized o := Dis.DEFireFlags.sized o
  ok_iff o := Dis.DEFireFlags.ok_iff o
  canon _ h := Dis.DEFireFlags.after_canon (s := Dis.DEFireFlags.init) h
  post := Codec.post_live (Dis.DEFireFlags.post)
  only h := nomatch h
  counted := by
    intro c hc; cases hc
  appended := fun _ h => nomatch h

theorem Codec.DirectedEnergyTargetEnergyDeposition.verified : Codec.DirectedEnergyTargetEnergyDeposition.Verified where
  rt s o _ := Dis.DirectedEnergyTargetEnergyDeposition.rt s o
  loc s := Dis.DirectedEnergyTargetEnergyDeposition.loc s
  lay o := Dis.DirectedEnergyTargetEnergyDeposition.lay o
  sized o := Dis.DirectedEnergyTargetEnergyDeposition.sized o
  ok_iff o := Dis.DirectedEnergyTargetEnergyDeposition.ok_iff o
  canon _ h := Dis.DirectedEnergyTargetEnergyDeposition.after_canon h
  post := Codec.post_plain (Dis.DirectedEnergyTargetEnergyDeposition.post)
  only h := nomatch h
  counted := by
    intro c hc; cases hc
  appended := fun _ h => nomatch h

theorem catalogWarfare_verified : ∀ c ∈ catalogWarfare, c.Verified := by
  intro c hc
  simp only [catalogWarfare, List.mem_cons, List.not_mem_nil, or_false] at hc
  rcases hc with rfl | rfl
  · exact Codec.DEFireFlags.verified
  · exact Codec.DirectedEnergyTargetEnergyDeposition.verified

theorem Codec.DirectedEnergyFirePdu.verified : Codec.DirectedEnergyFirePdu.Verified where
  rt s o h := Dis.DirectedEnergyFirePdu.rt s o h
  loc s := Dis.DirectedEnergyFirePdu.loc s
  lay o := Dis.DirectedEnergyFirePdu.lay o
  sized o := Dis.DirectedEnergyFirePdu.sized o
  ok_iff o := Dis.DirectedEnergyFirePdu.ok_iff o
  canon _ h := Dis.DirectedEnergyFirePdu.after_canon h
  post := Codec.post_live (Dis.DirectedEnergyFirePdu.post)
  only h := nomatch h
  counted := by
    refine List.forall_mem_cons.2 ⟨fun o => CountField.At.unsigned (pre := [WarfareFamilyPdu.wire o.toWarfareFamilyPdu, EntityType.wire o.munitionType, ClockTime.wire o.shotStartTime, [Slot.orFail .attributeError Slot.f32 o.commulativeShotTime], Vector3Float.wire o.apertureEmitterLocation, [.f32 o.apertureDiameter], [.f32 o.wavelength], [.u32 o.padding1], [.f32 o.pulseRepetitionFrequency], [.f32 o.pulseWidth], DEFireFlags.wire o.flags, [.u8 o.pulseShape], [.u8 o.padding2], [.u32 o.padding3], [.u16 o.padding4]].flatten)
        (post := [o.dERecords.flatMap SVRecord.wire].flatten)
        (by simp [Codec.DirectedEnergyFirePdu, Dis.DirectedEnergyFirePdu.wire]) (SizedL.of_eq (n := _) (SizedL.append (SizedL.of (WarfareFamilyPdu.lay _) (WarfareFamilyPdu.sized _)) <|
        SizedL.append (SizedL.of (EntityType.lay _) (EntityType.sized _)) <|
        SizedL.append (SizedL.of (ClockTime.lay _) (ClockTime.sized _)) <|
        SizedL.append (SizedL.attr (fun _ => SizedL.of (lay_float32 _) (sized_float32 _))) <|
        SizedL.append (SizedL.of (Vector3Float.lay _) (Vector3Float.sized _)) <|
        SizedL.append (SizedL.of (lay_float32 _) (sized_float32 _)) <|
        SizedL.append (SizedL.of (lay_float32 _) (sized_float32 _)) <|
        SizedL.append (SizedL.of (lay_uint32 _) (sized_uint32 _)) <|
        SizedL.append (SizedL.of (lay_float32 _) (sized_float32 _)) <|
        SizedL.append (SizedL.of (lay_float32 _) (sized_float32 _)) <|
        SizedL.append (SizedL.of (DEFireFlags.lay _) (DEFireFlags.sized _)) <|
        SizedL.append (SizedL.of (lay_uint8 _) (sized_uint8 _)) <|
        SizedL.append (SizedL.of (lay_uint8 _) (sized_uint8 _)) <|
        SizedL.append (SizedL.of (lay_uint32 _) (sized_uint32 _)) <|
        SizedL.append (SizedL.of (lay_uint16 _) (sized_uint16 _)) <|
        SizedL.nil) (by rfl)) (by decide)
        (WidthL.of_eq (WidthL.append ((WarfareFamilyPdu.bounded _)) <|
        WidthL.append ((EntityType.bounded _)) <|
        WidthL.append ((ClockTime.bounded _)) <|
        WidthL.append (WidthL.fail (n := 4) (fun _ => rfl)) <|
        WidthL.append ((Vector3Float.bounded _)) <|
        WidthL.append (WidthL.one) <|
        WidthL.append (WidthL.one) <|
        WidthL.append (WidthL.one) <|
        WidthL.append (WidthL.one) <|
        WidthL.append (WidthL.one) <|
        WidthL.append ((DEFireFlags.bounded _)) <|
        WidthL.append (WidthL.one) <|
        WidthL.append (WidthL.one) <|
        WidthL.append (WidthL.one) <|
        WidthL.append (WidthL.one) <|
        WidthL.nil) (by rfl)), ?_⟩
    exact fun _ h => nomatch h
  appended := by
    refine List.forall_mem_cons.2 ⟨fun s o hd hw => ?_, ?_⟩
    · simp only [Codec.DirectedEnergyFirePdu, Dis.DirectedEnergyFirePdu.Decodable, Dis.DirectedEnergyFirePdu.WireOk] at hd hw ⊢
      simp_all [Dis.DirectedEnergyFirePdu.after]
    exact fun _ h => nomatch h

theorem Codec.EntityDamageStatusPdu.verified : Codec.EntityDamageStatusPdu.Verified where
  rt s o h := Dis.EntityDamageStatusPdu.rt s o h
  loc s := Dis.EntityDamageStatusPdu.loc s
  lay o := Dis.EntityDamageStatusPdu.lay o
  sized o := Dis.EntityDamageStatusPdu.sized o
  ok_iff o := Dis.EntityDamageStatusPdu.ok_iff o
  canon _ h := Dis.EntityDamageStatusPdu.after_canon h
  post := Codec.post_live (Dis.EntityDamageStatusPdu.post)
  only h := nomatch h
  counted := by
    refine List.forall_mem_cons.2 ⟨fun o => CountField.At.unsigned (pre := [WarfareFamilyPdu.wire o.toWarfareFamilyPdu, EntityIdentifier.wire o.damagedEntityID, [.u16 o.padding1], [.u16 o.padding2]].flatten)
        (post := [o.damageDescriptions.flatMap SVRecord.wire].flatten)
        (by simp [Codec.EntityDamageStatusPdu, Dis.EntityDamageStatusPdu.wire]) (SizedL.of_eq (n := _) (SizedL.append (SizedL.of (WarfareFamilyPdu.lay _) (WarfareFamilyPdu.sized _)) <|
        SizedL.append (SizedL.of (EntityIdentifier.lay _) (EntityIdentifier.sized _)) <|
        SizedL.append (SizedL.of (lay_uint16 _) (sized_uint16 _)) <|
        SizedL.append (SizedL.of (lay_uint16 _) (sized_uint16 _)) <|
        SizedL.nil) (by rfl)) (by decide)
        (WidthL.of_eq (WidthL.append ((WarfareFamilyPdu.bounded _)) <|
        WidthL.append ((EntityIdentifier.bounded _)) <|
        WidthL.append (WidthL.one) <|
        WidthL.append (WidthL.one) <|
        WidthL.nil) (by rfl)), ?_⟩
    exact fun _ h => nomatch h
  appended := by
    refine List.forall_mem_cons.2 ⟨fun s o hd hw => ?_, ?_⟩
    · simp only [Codec.EntityDamageStatusPdu, Dis.EntityDamageStatusPdu.Decodable, Dis.EntityDamageStatusPdu.WireOk] at hd hw ⊢
      simp_all [Dis.EntityDamageStatusPdu.after]
    exact fun _ h => nomatch h

theorem catalogSpecial_verified : ∀ c ∈ catalogSpecial, c.Verified := by
  intro c hc
  simp only [catalogSpecial, List.mem_cons, List.not_mem_nil, or_false] at hc
  rcases hc with rfl | rfl
  · exact Codec.DirectedEnergyFirePdu.verified
  · exact Codec.EntityDamageStatusPdu.verified

theorem catalog_verified : ∀ c ∈ catalog, c.Verified := by
  intro c hc
  simp only [catalog, List.mem_append] at hc
  rcases hc with (((((((((((((h | h) | h) | h) | h) | h) | h) | h) | h) | h) | h) | h) | h) | h)
  · exact catalogCommon_verified c h
  · exact catalogRecords1_verified c h
  · exact catalogRecords2_verified c h
  · exact catalogRecords3_verified c h
  · exact catalogRecords4_verified c h
  · exact catalogRecords5_verified c h
  · exact catalogPdus1_verified c h
  · exact catalogPdus2_verified c h
  · exact catalogPdus3_verified c h
  · exact catalogPdus4_verified c h
  · exact catalogPdus5_verified c h
  · exact catalogRadio_verified c h
  · exact catalogWarfare_verified c h
  · exact catalogSpecial_verified c h

end Dis
