import Verif.Proof.SourceRecords
import Verif.Proof.SourceRun3
import Verif.Proof.SourceInitMore

/-!
# C80: the counts of classes outside of the list, and `is_positive_int`
-/

namespace Dis

open Src

/-- Reading a property of an object that a variable holds. -/
private theorem reads {c f v : Ident} {fs : List (Ident × Src.Val)} {u : Src.Val} {n : Nat} {st : St}
    (hp : isProperty program c f = true) (hv : look v st.locals = some (.obj c fs))
    (h : ∀ io, run n c f (.obj c fs) [] [] io = (.ok u, .obj c fs, io)) :
    eval program words streams (methods program words streams n) (.attr (.name v) f) st = (.ok u, st) := by
  unfold eval
  rw [M.bind_ok (eval_local hv)]
  unfold getAttr
  simp only [hp]
  show (match run n c f _ [] [] st.io with | (r, _, io) => (r, { st with io })) = _
  rw [h st.io]

/-- **C80.** The two counts of a `DirectedEnergyAreaAimpoint` are the lengths of its lists. -/
theorem C80_area_counts (x : DirectedEnergyAreaAimpoint) (v : Ident) (n : Nat) (st : St)
    (hv : look v st.locals = some (DirectedEnergyAreaAimpoint.enc x)) :
    eval program words streams (methods program words streams (n + 8)) (.attr (.name v) I.beamAntennaPatternCount) st =
      (.ok (.int x.beamAntennaPatterns.length), st) ∧
    eval program words streams (methods program words streams (n + 8))
      (.attr (.name v) I.directedEnergyTargetEnergyDepositionCount) st =
      (.ok (.int x.directedEnergyTargetEnergyDepositions.length), st) :=
  ⟨reads (by kernel_rfl) hv (property_of (d := I.DirectedEnergyAreaAimpoint)
      (f := DirectedEnergyAreaAimpoint.beamAntennaPatternCount) (by kernel_rfl) rfl rfl
      (gives_len_map (gives_attr (gives_name rfl) (by kernel_rfl) rfl))),
    reads (by kernel_rfl) hv (property_of (d := I.DirectedEnergyAreaAimpoint)
      (f := DirectedEnergyAreaAimpoint.directedEnergyTargetEnergyDepositionCount) (by kernel_rfl) rfl rfl
      (gives_len_map (gives_attr (gives_name rfl) (by kernel_rfl) rfl)))⟩

/-- **C80.** The number of segments of a `LinearObjectStatePdu` is the length of its list, and assigning to it raises
`AttributeError`. -/
theorem C80_segments (x : LinearObjectStatePdu) (v : Ident) (n : Nat) (st : St)
    (hv : look v st.locals = some (LinearObjectStatePdu.enc x)) :
    eval program words streams (methods program words streams (n + 8)) (.attr (.name v) I.numberOfSegments) st =
      (.ok (.int x.linearSegmentParameters.length), st) ∧
    ∀ u, store program (.attr (.name v) I.numberOfSegments) u st = (.error .attributeError, st) := by
  have hp : isProperty program I.LinearObjectStatePdu I.numberOfSegments = true := by kernel_rfl
  refine ⟨reads hp hv (property_of (d := I.LinearObjectStatePdu) (f := LinearObjectStatePdu.numberOfSegments) (by kernel_rfl)
    rfl rfl (gives_len_map (gives_attr (gives_name rfl) (by kernel_rfl) rfl))), fun u => ?_⟩
  unfold store
  show (M.bind (M.var? v) fun o => M.bind (M.get .nameError o) _) st = _
  have h0 : M.var? v st = (.ok (some (LinearObjectStatePdu.enc x)), st) := by rw [← hv]; rfl
  refine (M.bind_ok h0).trans ((M.bind_ok (a := LinearObjectStatePdu.enc x) rfl).trans ?_)
  simp only [hp]
  rfl

/-- **C80.** `is_positive_int(v)` is true for the integers that are not negative (`True` and `False` are integers), and false
for everything else, in both classes that define it and on any object. -/
theorem C80_is_positive_int (o v : Src.Val) (n : Nat) (io : Streams) :
    methods program words streams (n + 8) I.VariableRecord I.is_positive_int o [v] [] io =
      (.ok (.bool (match v with | .int i => decide (0 ≤ i) | .bool _ => true | _ => false)), o, io) ∧
    methods program words streams (n + 8) I.StandardVariableRecord I.is_positive_int o [v] [] io =
      (.ok (.bool (match v with | .int i => decide (0 ≤ i) | .bool _ => true | _ => false)), o, io) := by
  cases v with
  | bool b => cases b <;> exact ⟨by kernel_rfl, by kernel_rfl⟩
  | _ => exact ⟨by kernel_rfl, by kernel_rfl⟩

/-! Concrete cases: an aim point with one antenna pattern and no depositions, and values that are and are not positive. -/

example (n : Nat) (io : Streams) :
    eval program words streams (methods program words streams (n + 8)) (.attr (.name I.value) I.beamAntennaPatternCount)
      ⟨[(I.value, DirectedEnergyAreaAimpoint.enc { beamAntennaPatterns := [BeamAntennaPattern.init] })], io⟩ =
      (.ok (.int 1), ⟨[(I.value, DirectedEnergyAreaAimpoint.enc { beamAntennaPatterns := [BeamAntennaPattern.init] })], io⟩) :=
  (C80_area_counts { beamAntennaPatterns := [BeamAntennaPattern.init] } I.value n
    ⟨[(I.value, DirectedEnergyAreaAimpoint.enc { beamAntennaPatterns := [BeamAntennaPattern.init] })], io⟩ rfl).1

example (n : Nat) (io : Streams) :
    methods program words streams (n + 8) I.VariableRecord I.is_positive_int .none [.int (-1)] [] io = (.ok (.bool false), .none, io) ∧
    methods program words streams (n + 8) I.VariableRecord I.is_positive_int .none [.float 0] [] io = (.ok (.bool false), .none, io) ∧
    methods program words streams (n + 8) I.VariableRecord I.is_positive_int .none [.int 0] [] io = (.ok (.bool true), .none, io) :=
  ⟨(C80_is_positive_int .none (.int (-1)) n io).1, (C80_is_positive_int .none (.float 0) n io).1,
    (C80_is_positive_int .none (.int 0) n io).1⟩

end Dis
