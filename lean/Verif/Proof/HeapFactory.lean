import Verif.Proof.HeapSpecial
import Verif.Proof.InPlaceCatalog
import Verif.Model.HeapFactory
import Verif.Spec.HeapFactory

/-!
# The factory on a memory of objects

Generated by `tools/genheap.py` from the list of classes in `Verif.Model.Factory`.
-/

namespace Dis

/-- The program raises and leaves all there was as it was. -/
def RaisesNew (c : H Ref) (e : PyErr) : Prop :=
  ∀ h s, ∃ h', c h s = (.error e, h', s) ∧ Grows h [] h' []

/-- The program, part of a constructor, raises and changes nothing but its object. -/
def RaisesInit (c : Ref → H Unit) (fs : List (String × Tree)) (e : PyErr) : Prop :=
  ∀ self h F s, Holds h (.ref self) (.obj fs) F → ∃ h' F', c self h s = (.error e, h', s) ∧ Grows h F h' F'

theorem RaisesInit.bind {c d : Ref → H Unit} {fs fs' : List (String × Tree)} {e : PyErr} (a : Inits c fs fs')
    (b : RaisesInit d fs' e) : RaisesInit (fun self => c self >>= fun _ => d self) fs e := by
  intro self h F s A
  obtain ⟨h1, F1, e1, A1, g1⟩ := a self h F s A
  obtain ⟨h2, F2, e2, g2⟩ := b self h1 F1 s A1
  refine ⟨h2, F2, ?_, g1.trans g2⟩
  simp only [H.bind_def, H.bind, e1, e2]

theorem RaisesInit.throw {fs : List (String × Tree)} {e : PyErr} : RaisesInit (fun _ => H.throw e) fs e :=
  fun _ h F _ _ => ⟨h, F, rfl, .refl h F⟩

theorem RaisesInit.new {attrs : List (String × Scalar)} {c : Ref → H Unit} {e : PyErr}
    (a : RaisesInit c (attrs.map fun a => (a.1, .sc a.2)) e) : RaisesNew (H.new attrs c) e := by
  intro h s
  obtain ⟨h', F', e', g⟩ := a h.length (h ++ [.obj (attrs.map fun a => (a.1, .sc a.2))]) [h.length] s
    (Holds.obj_iff.mpr ⟨_, [], rfl, by simp, by simp, HoldsAll.scalars attrs, fun h => nomatch h⟩)
  refine ⟨h', ?_, ?_⟩
  · simp only [H.new, H.bind_def, H.bind, H.alloc, e']
  · refine ⟨Nat.le_trans (by simp) g.longer, (fun _ h => nomatch h), fun r hr _ => ?_⟩
    rw [g.frame r (Nat.lt_of_lt_of_le hr (by simp)) (by
      intro hm; simp at hm; exact absurd hr (Nat.not_lt.mpr (Nat.le_of_eq hm.symm))), List.getElem?_append_left hr]

theorem Loads.raises {τ : Type} {new : H Ref} {c : Ref → H Unit} {e : PyErr} {k : τ → R AnyPdu}
    (hn : RaisesNew new e) : Loads (H.load new c) (R.ofExcept (.error e) >>= k) AnyPdu.members := by
  intro h s
  obtain ⟨h', e1, g⟩ := hn h s
  refine ⟨h', ?_⟩
  simp only [R.bind_def, R.bind, R.ofExcept, H.load, H.bind_def, H.bind, e1]
  exact ⟨trivial, g⟩

theorem LinearObjectStatePdu.raises : RaisesNew LinearObjectStatePdu.newHeap .nameError := by
  refine RaisesInit.new ?_
  unfold LinearObjectStatePdu.initHeap
  refine .bind (SyntheticEnvironmentFamilyPdu.inits 44 9 _) ?_
  refine .bind (.setOr' EntityIdentifier.makesNew (by simp [attrOf, SyntheticEnvironmentFamilyPdu.members, Pdu.members, PduSuperclass.members])) ?_
  refine .bind (.setOr' EntityIdentifier.makesNew (by simp [attrOf_putAttr_isSome, attrOf, SyntheticEnvironmentFamilyPdu.members, Pdu.members, PduSuperclass.members])) ?_
  refine .bind (.set' (by simp [attrOf_putAttr_isSome, attrOf, SyntheticEnvironmentFamilyPdu.members, Pdu.members, PduSuperclass.members])) ?_
  refine .bind (.set' (by simp [attrOf_putAttr_isSome, attrOf, SyntheticEnvironmentFamilyPdu.members, Pdu.members, PduSuperclass.members])) ?_
  exact .throw

theorem AttributePdu.raises : RaisesNew AttributePdu.newHeap .valueError := by
  intro h s
  refine ⟨h ++ [.obj ((putAttr "exerciseID" (.sc (.int 0)) (putAttr "protocolVersion" (.sc (.int 7))
    (AttributePdu.attrs.map fun a => (a.1, .sc a.2)))))], ?_, by simp, (fun _ h => nomatch h),
    fun r hr _ => List.getElem?_append_left hr⟩
  simp [AttributePdu.newHeap, H.new, AttributePdu.initHeap, EntityInformationFamilyPdu.initHeap, Pdu.initHeap,
    PduSuperclass.initHeap, H.bind_def, H.bind, H.alloc, H.setAttr, H.hasAttr, AttributePdu.attrs, attrOf, putAttr, H.throw]

theorem PduClass.loads (c : PduClass) : Loads c.decodeHeap c.decode AnyPdu.members := by
  cases c
  · exact .load EntityStateUpdatePdu.makesNew EntityStateUpdatePdu.refines (EntityStateUpdatePdu.into _) fun _ => rfl
  · exact .load ServiceRequestPdu.makesNew ServiceRequestPdu.refines (ServiceRequestPdu.into _) fun _ => rfl
  · exact .load RepairCompletePdu.makesNew RepairCompletePdu.refines (RepairCompletePdu.into _) fun _ => rfl
  · exact .load CollisionPdu.makesNew CollisionPdu.refines (CollisionPdu.into _) fun _ => rfl
  · exact .load RepairResponsePdu.makesNew RepairResponsePdu.refines (RepairResponsePdu.into _) fun _ => rfl
  · exact .load DataQueryPdu.makesNew DataQueryPdu.refines (DataQueryPdu.into _) fun _ => rfl
  · exact .raises LinearObjectStatePdu.raises
  · exact .load CreateEntityPdu.makesNew CreateEntityPdu.refines (CreateEntityPdu.into _) fun _ => rfl
  · exact .load IntercomSignalPdu.makesNew IntercomSignalPdu.refines (IntercomSignalPdu.into _) fun _ => rfl
  · exact .load RemoveEntityPdu.makesNew RemoveEntityPdu.refines (RemoveEntityPdu.into _) fun _ => rfl
  · exact .load ResupplyReceivedPdu.makesNew ResupplyReceivedPdu.refines (ResupplyReceivedPdu.into _) fun _ => rfl
  · exact .load CollisionElasticPdu.makesNew CollisionElasticPdu.refines (CollisionElasticPdu.into _) fun _ => rfl
  · exact .load ActionRequestPdu.makesNew ActionRequestPdu.refines (ActionRequestPdu.into _) fun _ => rfl
  · exact .load AcknowledgePdu.makesNew AcknowledgePdu.refines (AcknowledgePdu.into _) fun _ => rfl
  · exact .load ActionRequestReliablePdu.makesNew ActionRequestReliablePdu.refines (ActionRequestReliablePdu.into _) fun _ => rfl
  · exact .load DesignatorPdu.makesNew DesignatorPdu.refines (DesignatorPdu.into _) fun _ => rfl
  · exact .load StopFreezePdu.makesNew StopFreezePdu.refines (StopFreezePdu.into _) fun _ => rfl
  · exact .load EntityStatePdu.makesNew EntityStatePdu.refines (EntityStatePdu.into _) fun _ => rfl
  · exact .load StartResumePdu.makesNew StartResumePdu.refines (StartResumePdu.into _) fun _ => rfl
  · exact .load TransmitterPdu.makesNew TransmitterPdu.refines (TransmitterPdu.into _) fun _ => rfl
  · exact .load ElectromagneticEmissionsPdu.makesNew ElectromagneticEmissionsPdu.refines (ElectromagneticEmissionsPdu.into _) fun _ => rfl
  · exact .load ResupplyOfferPdu.makesNew ResupplyOfferPdu.refines (ResupplyOfferPdu.into _) fun _ => rfl
  · exact .load SetDataReliablePdu.makesNew SetDataReliablePdu.refines (SetDataReliablePdu.into _) fun _ => rfl
  · exact .load EventReportPdu.makesNew EventReportPdu.refines (EventReportPdu.into _) fun _ => rfl
  · exact .load PointObjectStatePdu.makesNew PointObjectStatePdu.refines (PointObjectStatePdu.into _) fun _ => rfl
  · exact .load DataPdu.makesNew DataPdu.refines (DataPdu.into _) fun _ => rfl
  · exact .load FastEntityStatePdu.makesNew FastEntityStatePdu.refines (FastEntityStatePdu.into _) fun _ => rfl
  · exact .load AcknowledgeReliablePdu.makesNew AcknowledgeReliablePdu.refines (AcknowledgeReliablePdu.into _) fun _ => rfl
  · exact .load StartResumeReliablePdu.makesNew StartResumeReliablePdu.refines (StartResumeReliablePdu.into _) fun _ => rfl
  · exact .load ArealObjectStatePdu.makesNew ArealObjectStatePdu.refines (ArealObjectStatePdu.into _) fun _ => rfl
  · exact .load DataQueryReliablePdu.makesNew DataQueryReliablePdu.refines (DataQueryReliablePdu.into _) fun _ => rfl
  · exact .load MinefieldStatePdu.makesNew MinefieldStatePdu.refines (MinefieldStatePdu.into _) fun _ => rfl
  · exact .load DataReliablePdu.makesNew DataReliablePdu.refines (DataReliablePdu.into _) fun _ => rfl
  · exact .load CommentPdu.makesNew CommentPdu.refines (CommentPdu.into _) fun _ => rfl
  · exact .load CommentReliablePdu.makesNew CommentReliablePdu.refines (CommentReliablePdu.into _) fun _ => rfl
  · exact .load DirectedEnergyFirePdu.makesNew DirectedEnergyFirePdu.refines (DirectedEnergyFirePdu.into _) fun _ => rfl
  · exact .load DetonationPdu.makesNew DetonationPdu.refines (DetonationPdu.into _) fun _ => rfl
  · exact .load SetDataPdu.makesNew SetDataPdu.refines (SetDataPdu.into _) fun _ => rfl
  · exact .load RecordQueryReliablePdu.makesNew RecordQueryReliablePdu.refines (RecordQueryReliablePdu.into _) fun _ => rfl
  · exact .load ActionResponsePdu.makesNew ActionResponsePdu.refines (ActionResponsePdu.into _) fun _ => rfl
  · exact .load EntityDamageStatusPdu.makesNew EntityDamageStatusPdu.refines (EntityDamageStatusPdu.into _) fun _ => rfl
  · exact .load FirePdu.makesNew FirePdu.refines (FirePdu.into _) fun _ => rfl
  · exact .load ReceiverPdu.makesNew ReceiverPdu.refines (ReceiverPdu.into _) fun _ => rfl
  · exact .load UaPdu.makesNew UaPdu.refines (UaPdu.into _) fun _ => rfl
  · exact .load IntercomControlPdu.makesNew IntercomControlPdu.refines (IntercomControlPdu.into _) fun _ => rfl
  · exact .load SignalPdu.makesNew SignalPdu.refines (SignalPdu.into _) fun _ => rfl
  · exact .load RemoveEntityReliablePdu.makesNew RemoveEntityReliablePdu.refines (RemoveEntityReliablePdu.into _) fun _ => rfl
  · exact .load SeesPdu.makesNew SeesPdu.refines (SeesPdu.into _) fun _ => rfl
  · exact .load CreateEntityReliablePdu.makesNew CreateEntityReliablePdu.refines (CreateEntityReliablePdu.into _) fun _ => rfl
  · exact .load StopFreezeReliablePdu.makesNew StopFreezeReliablePdu.refines (StopFreezeReliablePdu.into _) fun _ => rfl
  · exact .load EventReportReliablePdu.makesNew EventReportReliablePdu.refines (EventReportReliablePdu.into _) fun _ => rfl
  · exact .load MinefieldResponseNackPdu.makesNew MinefieldResponseNackPdu.refines (MinefieldResponseNackPdu.into _) fun _ => rfl
  · exact .load ActionResponseReliablePdu.makesNew ActionResponseReliablePdu.refines (ActionResponseReliablePdu.into _) fun _ => rfl
  · exact .load IsPartOfPdu.makesNew IsPartOfPdu.refines (IsPartOfPdu.into _) fun _ => rfl
  · exact .load AggregateStatePdu.makesNew AggregateStatePdu.refines (AggregateStatePdu.into _) fun _ => rfl

theorem Shows.alone {σ : Type} {fs : σ → List (String × Tree)} {w : σ → W Unit} {c : Ref → S Unit}
    (hs : Shows fs w c) (r : Ref) (o : σ) (h : Heap) (F : List Ref) (A : Holds h (.ref r) (.obj (fs o)) F) :
    c r h = w o := hs [] r o h F (by rw [List.append_nil]; exact A.amounts)

theorem AnyPdu.shows (r : Ref) (p : AnyPdu) (h : Heap) (F : List Ref) (A : Holds h (.ref r) (.obj p.members) F) :
    p.cls.serializeHeap r h = p.serialize :=
  match p, A with
  | .EntityStateUpdatePdu p, A => EntityStateUpdatePdu.shows.alone r p h F A
  | .ServiceRequestPdu p, A => ServiceRequestPdu.shows.alone r p h F A
  | .RepairCompletePdu p, A => RepairCompletePdu.shows.alone r p h F A
  | .CollisionPdu p, A => CollisionPdu.shows.alone r p h F A
  | .RepairResponsePdu p, A => RepairResponsePdu.shows.alone r p h F A
  | .DataQueryPdu p, A => DataQueryPdu.shows.alone r p h F A
  | .LinearObjectStatePdu p, A => LinearObjectStatePdu.shows.alone r p h F A
  | .CreateEntityPdu p, A => CreateEntityPdu.shows.alone r p h F A
  | .IntercomSignalPdu p, A => IntercomSignalPdu.shows.alone r p h F A
  | .RemoveEntityPdu p, A => RemoveEntityPdu.shows.alone r p h F A
  | .ResupplyReceivedPdu p, A => ResupplyReceivedPdu.shows.alone r p h F A
  | .CollisionElasticPdu p, A => CollisionElasticPdu.shows.alone r p h F A
  | .ActionRequestPdu p, A => ActionRequestPdu.shows.alone r p h F A
  | .AcknowledgePdu p, A => AcknowledgePdu.shows.alone r p h F A
  | .ActionRequestReliablePdu p, A => ActionRequestReliablePdu.shows.alone r p h F A
  | .DesignatorPdu p, A => DesignatorPdu.shows.alone r p h F A
  | .StopFreezePdu p, A => StopFreezePdu.shows.alone r p h F A
  | .EntityStatePdu p, A => EntityStatePdu.shows.alone r p h F A
  | .StartResumePdu p, A => StartResumePdu.shows.alone r p h F A
  | .TransmitterPdu p, A => TransmitterPdu.shows.alone r p h F A
  | .ElectromagneticEmissionsPdu p, A => ElectromagneticEmissionsPdu.shows.alone r p h F A
  | .ResupplyOfferPdu p, A => ResupplyOfferPdu.shows.alone r p h F A
  | .SetDataReliablePdu p, A => SetDataReliablePdu.shows.alone r p h F A
  | .EventReportPdu p, A => EventReportPdu.shows.alone r p h F A
  | .PointObjectStatePdu p, A => PointObjectStatePdu.shows.alone r p h F A
  | .DataPdu p, A => DataPdu.shows.alone r p h F A
  | .FastEntityStatePdu p, A => FastEntityStatePdu.shows.alone r p h F A
  | .AcknowledgeReliablePdu p, A => AcknowledgeReliablePdu.shows.alone r p h F A
  | .StartResumeReliablePdu p, A => StartResumeReliablePdu.shows.alone r p h F A
  | .ArealObjectStatePdu p, A => ArealObjectStatePdu.shows.alone r p h F A
  | .DataQueryReliablePdu p, A => DataQueryReliablePdu.shows.alone r p h F A
  | .MinefieldStatePdu p, A => MinefieldStatePdu.shows.alone r p h F A
  | .DataReliablePdu p, A => DataReliablePdu.shows.alone r p h F A
  | .CommentPdu p, A => CommentPdu.shows.alone r p h F A
  | .CommentReliablePdu p, A => CommentReliablePdu.shows.alone r p h F A
  | .DirectedEnergyFirePdu p, A => DirectedEnergyFirePdu.shows.alone r p h F A
  | .DetonationPdu p, A => DetonationPdu.shows.alone r p h F A
  | .SetDataPdu p, A => SetDataPdu.shows.alone r p h F A
  | .RecordQueryReliablePdu p, A => RecordQueryReliablePdu.shows.alone r p h F A
  | .ActionResponsePdu p, A => ActionResponsePdu.shows.alone r p h F A
  | .EntityDamageStatusPdu p, A => EntityDamageStatusPdu.shows.alone r p h F A
  | .FirePdu p, A => FirePdu.shows.alone r p h F A
  | .ReceiverPdu p, A => ReceiverPdu.shows.alone r p h F A
  | .UaPdu p, A => UaPdu.shows.alone r p h F A
  | .IntercomControlPdu p, A => IntercomControlPdu.shows.alone r p h F A
  | .SignalPdu p, A => SignalPdu.shows.alone r p h F A
  | .RemoveEntityReliablePdu p, A => RemoveEntityReliablePdu.shows.alone r p h F A
  | .SeesPdu p, A => SeesPdu.shows.alone r p h F A
  | .CreateEntityReliablePdu p, A => CreateEntityReliablePdu.shows.alone r p h F A
  | .StopFreezeReliablePdu p, A => StopFreezeReliablePdu.shows.alone r p h F A
  | .EventReportReliablePdu p, A => EventReportReliablePdu.shows.alone r p h F A
  | .MinefieldResponseNackPdu p, A => MinefieldResponseNackPdu.shows.alone r p h F A
  | .ActionResponseReliablePdu p, A => ActionResponseReliablePdu.shows.alone r p h F A
  | .IsPartOfPdu p, A => IsPartOfPdu.shows.alone r p h F A
  | .AggregateStatePdu p, A => AggregateStatePdu.shows.alone r p h F A

/-- What the factory gives, against what it gives with values. -/
theorem getPdu_loads (h : Heap) (s : InStream) : ∃ h',
    match getPdu s with
    | (.ok (some p), s') => ∃ r F, getPduHeap h s = (.ok (some r), h', s') ∧ Holds h' (.ref r) (.obj p.members) F ∧
        Grows h [] h' F
    | (.ok none, s') => getPduHeap h s = (.ok none, h', s') ∧ Grows h [] h' []
    | (.error e, s') => getPduHeap h s = (.error e, h', s') ∧ Grows h [] h' [] := by
  have same : Grows h [] h [] := .refl h []
  simp only [getPdu, getPduHeap, H.bind_def, H.bind, H.read, R.bind_def, R.bind]
  rcases R.seek 2 s with ⟨_ | _, s1⟩
  · exact ⟨h, rfl, same⟩
  rcases hb : read_byte s1 with ⟨_ | t, s2⟩
  · simp only [hb]; exact ⟨h, rfl, same⟩
  simp only [hb]
  rcases R.seek 0 s2 with ⟨_ | _, s3⟩
  · exact ⟨h, rfl, same⟩
  simp only
  cases PduTypeDecoders.lookup t with
  | none => exact ⟨h, rfl, same⟩
  | some c =>
    obtain ⟨h', q⟩ := c.loads h s3
    refine ⟨h', ?_⟩
    revert q
    simp only [H.bind, R.bind_def, R.bind]
    rcases c.decode s3 with ⟨_ | p, s4⟩
    · rintro ⟨e, g⟩
      rw [e]
      exact ⟨rfl, g⟩
    · rintro ⟨r, F, e, A, g⟩
      rw [e]
      exact ⟨r, F, rfl, A, g⟩

end Dis
