import Verif.Proof.SourceSpecial
import Verif.Proof.SourceLaw5

/-!
# The classes with bit fields or lengths with their laws
-/

namespace Dis.Src

/-- The attributes of a `DEFireFlags` object while its `weaponOn` is not known to be a number
(/repo/opendis/record/warfare/enums.py:11-23). -/
abbrev DEFireFlags.raw (r : Val × Dis.DEFireFlags) : List (Ident × Val) := DEFireFlags.fieldsWith r.1 r.2

/-- `DEFireFlags.parse` on such an object (/repo/opendis/record/warfare/enums.py:34-38). -/
def DEFireFlags.parseRaw : P (Val × Dis.DEFireFlags) Unit := do
  let record_bitfield ← P.read (Bitfield.parse Dis.DEFireFlags.struct)
  P.set fun o => (.int (record_bitfield.getD 0 0), { o.2 with weaponOn := record_bitfield.getD 0 0 })
  P.set fun o => (o.1, { o.2 with stateUpdateFlag := record_bitfield.getD 1 0 })
  P.set fun o => (o.1, { o.2 with padding := record_bitfield.getD 2 0 })
  return ()

theorem DEFireFlags.parsesRaw (n : Nat) :
    Parses (run (n + 1)) I.DEFireFlags I.DEFireFlags DEFireFlags.raw DEFireFlags.parseRaw :=
  parses_of (n := n + 0) (d := I.DEFireFlags) (f := DEFireFlags.parse) rfl rfl <|
    par_bits (fs := DEFireFlags.layout) (plain rfl) (fun _ => rfl) rfl var_record_bitfield rfl fun _ =>
    par_assign (Q' := fun _ => True) (fun _ _ => gives_bits (gives_name rfl) rfl) (plain rfl) (fun _ => rfl) (fun _ _ => trivial) <|
    par_assign (Q' := fun _ => True) (fun _ _ => gives_bits (gives_name rfl) rfl) (plain rfl) (fun _ => rfl) (fun _ _ => trivial) <|
    par_assign (Q' := fun _ => True) (fun _ _ => gives_bits (gives_name rfl) rfl) (plain rfl) (fun _ => rfl) (fun _ _ => trivial) <|
    par_nil

theorem DEFireFlags.over : Over Prod.snd DEFireFlags.parseRaw Dis.DEFireFlags.parseInto :=
  over_bind over_read fun _ => over_bind (over_set fun _ => rfl) fun _ => over_bind (over_set fun _ => rfl) fun _ =>
    over_bind (over_set fun _ => rfl) fun _ => over_pure

theorem DEFireFlags.ends : Ends (fun _ => True) DEFireFlags.parseRaw (fun r => r.1 = .int r.2.weaponOn) :=
  ends_bind (Q1 := fun _ => True) ends_read fun _ => ends_bind (ends_set (fun r => r.1 = .int r.2.weaponOn) fun _ _ => rfl) fun _ =>
    ends_bind (Q1 := fun r => r.1 = .int r.2.weaponOn) (ends_keep fun _ h => h) fun _ =>
    ends_bind (Q1 := fun r => r.1 = .int r.2.weaponOn) (ends_keep fun _ h => h) fun _ => ends_pure

theorem DEFireFlags.fills (n : Nat) : Fills (run (n + 1)) I.DEFireFlags
    (.obj I.DEFireFlags (DEFireFlags.raw (.bool false, Dis.DEFireFlags.init))) DEFireFlags.fields Dis.DEFireFlags.init
      Dis.DEFireFlags.parseInto :=
  fills_over (DEFireFlags.parsesRaw n) DEFireFlags.over DEFireFlags.ends rfl fun r hr => by
    show DEFireFlags.fieldsWith r.1 r.2 = _
    rw [hr]

theorem SpreadSpectrum.lawful : Sourced.SpreadSpectrum.Lawful where
  serialize n x := SpreadSpectrum.serializes (n + 7) x
  parse n := SpreadSpectrum.parses (n + 7)
  inj _ _ := SpreadSpectrum.inj
  makes _ := ⟨_, .rfl' _, fun n => ⟨SpreadSpectrum.makes (n + 7), SpreadSpectrum.serializes (n + 7) Dis.SpreadSpectrum.init,
    fun io => ⟨_, SpreadSpectrum.parses (n + 7) Dis.SpreadSpectrum.init io, fun _ _ => rfl⟩⟩⟩

theorem ModulationType.lawful : Sourced.ModulationType.Lawful where
  serialize n x := ModulationType.serializes (n + 6) x
  parse n := ModulationType.parses (n + 6)
  inj _ _ := ModulationType.inj
  makes _ := ⟨_, .rfl' _, fun n => ⟨ModulationType.makes (n + 6), ModulationType.serializes (n + 6) Dis.ModulationType.init,
    fun io => ⟨_, ModulationType.parses (n + 6) Dis.ModulationType.init io, fun _ _ => rfl⟩⟩⟩

theorem NetId.lawful : Sourced.NetId.Lawful where
  serialize n x := NetId.serializes (n + 7) x
  parse n := NetId.parses (n + 7)
  inj _ _ := NetId.inj
  makes _ := ⟨_, .rfl' _, fun n => ⟨NetId.makes (n + 7), NetId.serializes (n + 7) Dis.NetId.init,
    fun io => ⟨_, NetId.parses (n + 7) Dis.NetId.init io, fun _ _ => rfl⟩⟩⟩

theorem BeamAntennaPattern.lawful : Sourced.BeamAntennaPattern.Lawful where
  serialize n x := BeamAntennaPattern.serializes (n + 6) x
  parse n := BeamAntennaPattern.parses (n + 5)
  inj _ _ := BeamAntennaPattern.inj
  makes _ := ⟨_, .rfl' _, fun n => ⟨BeamAntennaPattern.makes (n + 6), BeamAntennaPattern.serializes (n + 6) Dis.BeamAntennaPattern.init,
    fun io => ⟨_, BeamAntennaPattern.parses (n + 5) Dis.BeamAntennaPattern.init io, fun _ _ => rfl⟩⟩⟩

theorem BasicHaveQuickMP.lawful : Sourced.BasicHaveQuickMP.Lawful where
  serialize n x := BasicHaveQuickMP.serializes (n + 6) x
  parse n := BasicHaveQuickMP.parses (n + 5)
  inj _ _ := BasicHaveQuickMP.inj
  makes _ := ⟨_, .rfl' _, fun n => ⟨BasicHaveQuickMP.makes (n + 6), BasicHaveQuickMP.serializes (n + 6) Dis.BasicHaveQuickMP.init,
    fun io => ⟨_, BasicHaveQuickMP.parses (n + 5) Dis.BasicHaveQuickMP.init io, fun _ _ => rfl⟩⟩⟩

theorem CCTTSincgarsMP.lawful : Sourced.CCTTSincgarsMP.Lawful where
  serialize n x := CCTTSincgarsMP.serializes (n + 6) x
  parse n := CCTTSincgarsMP.parses (n + 5)
  inj _ _ := CCTTSincgarsMP.inj
  makes _ := ⟨_, .rfl' _, fun n => ⟨CCTTSincgarsMP.makes (n + 7), CCTTSincgarsMP.serializes (n + 6) Dis.CCTTSincgarsMP.init,
    fun io => ⟨_, CCTTSincgarsMP.parses (n + 5) Dis.CCTTSincgarsMP.init io, fun _ _ => rfl⟩⟩⟩

theorem DEFireFlags.lawful : Sourced.DEFireFlags.Lawful where
  serialize n x := DEFireFlags.serializes (n + 7) x
  parse n := DEFireFlags.parses (n + 7)
  inj _ _ := DEFireFlags.inj
  makes _ := ⟨DEFireFlags.fieldsWith (.bool false) Dis.DEFireFlags.init,
    .cons (.refl _) <| .cons (.refl _) <| .cons .bool <| .cons (.refl _) .nil, fun n =>
      ⟨DEFireFlags.makes (n + 7), DEFireFlags.serializesWith (n + 7) _ Dis.DEFireFlags.init rfl, DEFireFlags.fills (n + 7)⟩⟩

theorem DirectedEnergyTargetEnergyDeposition.lawful : Sourced.DirectedEnergyTargetEnergyDeposition.Lawful where
  serialize n x := DirectedEnergyTargetEnergyDeposition.serializes (n + 5) x
  parse n := DirectedEnergyTargetEnergyDeposition.parses (n + 5)
  inj _ _ := DirectedEnergyTargetEnergyDeposition.inj
  makes _ := ⟨_, .rfl' _, fun n => ⟨DirectedEnergyTargetEnergyDeposition.makes (n + 5), DirectedEnergyTargetEnergyDeposition.serializes (n + 5) Dis.DirectedEnergyTargetEnergyDeposition.init,
    fun io => ⟨_, DirectedEnergyTargetEnergyDeposition.parses (n + 5) Dis.DirectedEnergyTargetEnergyDeposition.init io, fun _ _ => rfl⟩⟩⟩

theorem SpreadSpectrum.known : Sourced.SpreadSpectrum.entry ∈ inPlaceRadio := .tail _ (.head _)

theorem ModulationType.known : Sourced.ModulationType.entry ∈ inPlaceRadio := .tail _ (.tail _ (.head _))

theorem NetId.known : Sourced.NetId.entry ∈ inPlaceRadio := .tail _ (.tail _ (.tail _ (.head _)))

theorem BeamAntennaPattern.known : Sourced.BeamAntennaPattern.entry ∈ inPlaceRadio := .head _

theorem BasicHaveQuickMP.known : Sourced.BasicHaveQuickMP.entry ∈ inPlaceRadio := .tail _ (.tail _ (.tail _ (.tail _ (.head _))))

theorem CCTTSincgarsMP.known : Sourced.CCTTSincgarsMP.entry ∈ inPlaceRadio := .tail _ (.tail _ (.tail _ (.tail _ (.tail _ (.head _)))))

theorem DEFireFlags.known : Sourced.DEFireFlags.entry ∈ inPlaceWarfare := .head _

theorem DirectedEnergyTargetEnergyDeposition.known : Sourced.DirectedEnergyTargetEnergyDeposition.entry ∈ inPlaceWarfare := .tail _ (.head _)

theorem sourced6_lawful : ∀ e ∈ sourced6, e.Lawful := by
  unfold sourced6
  refine List.forall_mem_cons.2 ⟨SpreadSpectrum.lawful, ?_⟩
  refine List.forall_mem_cons.2 ⟨ModulationType.lawful, ?_⟩
  refine List.forall_mem_cons.2 ⟨NetId.lawful, ?_⟩
  refine List.forall_mem_cons.2 ⟨BeamAntennaPattern.lawful, ?_⟩
  refine List.forall_mem_cons.2 ⟨BasicHaveQuickMP.lawful, ?_⟩
  refine List.forall_mem_cons.2 ⟨CCTTSincgarsMP.lawful, ?_⟩
  refine List.forall_mem_cons.2 ⟨DEFireFlags.lawful, ?_⟩
  refine List.forall_mem_cons.2 ⟨DirectedEnergyTargetEnergyDeposition.lawful, ?_⟩
  exact fun e h => nomatch h

theorem sourced6_known : ∀ e ∈ sourced6, e.entry ∈ inPlace := by
  unfold sourced6 inPlace
  refine List.forall_mem_cons.2 ⟨by simp only [List.mem_append, SpreadSpectrum.known, true_or, or_true], ?_⟩
  refine List.forall_mem_cons.2 ⟨by simp only [List.mem_append, ModulationType.known, true_or, or_true], ?_⟩
  refine List.forall_mem_cons.2 ⟨by simp only [List.mem_append, NetId.known, true_or, or_true], ?_⟩
  refine List.forall_mem_cons.2 ⟨by simp only [List.mem_append, BeamAntennaPattern.known, true_or, or_true], ?_⟩
  refine List.forall_mem_cons.2 ⟨by simp only [List.mem_append, BasicHaveQuickMP.known, true_or, or_true], ?_⟩
  refine List.forall_mem_cons.2 ⟨by simp only [List.mem_append, CCTTSincgarsMP.known, true_or, or_true], ?_⟩
  refine List.forall_mem_cons.2 ⟨by simp only [List.mem_append, DEFireFlags.known, true_or, or_true], ?_⟩
  refine List.forall_mem_cons.2 ⟨by simp only [List.mem_append, DirectedEnergyTargetEnergyDeposition.known, true_or, or_true], ?_⟩
  exact fun e h => nomatch h

end Dis.Src
