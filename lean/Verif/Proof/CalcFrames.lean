import Verif.Proof.CalcLla
import Verif.Proof.CalcPoint
import Verif.Proof.CalcUtm

/-!
# What the trees of the functions that call `ecef2lla` do
-/

namespace Dis.Calc
open Dbl
set_option exponentiation.threshold 3000
attribute [local irreducible] num classAttr Dbl.lla2utm Dbl.lla2ecef Dbl.rotate_3x3 Dbl.ecefvec2nedvec Dbl.ned2pae

theorem Gives.step {run run' : Nat → Res Val} {r : Option (Except PyErr Vec)} {f : Vec → Val} (k : Vec → Except PyErr Val)
    (h : Gives run (r.map (·.map f))) (h0 : run' 0 = .error .fuel)
    (he : ∀ n e, run n = .error e → run' (n + 1) = .error e)
    (hk : ∀ n v, 2 ≤ n → run n = .ok (f v) → run' (n + 1) = up (k v)) :
    Gives run' (r.map fun q => q.bind k) := by
  rcases r with _ | e | v
  · intro n
    rcases n with _ | n
    · exact h0
    · exact he n _ (h n)
  · obtain ⟨n₀, hn⟩ := h
    refine ⟨n₀ + 1, fun n hle => ?_⟩
    obtain ⟨m, rfl⟩ : ∃ m, n = m + 1 := ⟨n - 1, by omega⟩
    exact he m _ (hn m (by omega))
  · obtain ⟨n₀, hn⟩ := h
    refine ⟨n₀ + 3, fun n hle => ?_⟩
    obtain ⟨m, rfl⟩ : ∃ m, n = m + 1 := ⟨n - 1, by omega⟩
    exact hk m v (by omega) (hn m (by omega))

theorem ecef2lla_default_gives {O : Ops} (h : Ops.ieee = O) (M : Machine) (b : Bool) (ecef : Vec) :
    Gives (fun n => (calls O M rangeCoordinates n).method N.GPS N.ecef2lla [coords b ecef])
      ((ecef2lla M.toLibm ecef defaultTolerance).map (·.map point)) := by
  simp only [ecef2lla_default h M]
  exact ecef2lla_gives h M b ecef defaultTolerance default_small

theorem ecef2utm_gives {O : Ops} (h : Ops.ieee = O) (M : Machine) (b : Bool) (ecef : Vec) :
    Gives (fun n => (calls O M rangeCoordinates n).method N.GPS N.ecef2utm [coords b ecef])
      ((ecef2utm M.toCMath ecef).map (·.map utmValue)) := by
  have hs := Gives.step (run' := fun n => (calls O M rangeCoordinates n).method N.GPS N.ecef2utm [coords b ecef])
    (fun lla => (lla2utm M.toCMath lla).map utmValue) (ecef2lla_default_gives h M b ecef) rfl ?_ ?_
  · refine Eq.mp (congrArg (Gives _) ?_) hs
    unfold ecef2utm
    generalize ecef2lla M.toLibm ecef defaultTolerance = r
    rcases r with _ | _ | v
    · rfl
    · rfl
    · show some ((lla2utm M.toCMath v).map utmValue) = (Option.some (lla2utm M.toCMath v)).map (·.map utmValue)
      generalize (lla2utm M.toCMath v) = w
      rfl
  · intro n e he
    rw [method_eq rfl rfl]
    generalize calls O M rangeCoordinates n = C at *
    calc_run h [he]
  · intro n v hn he
    rw [method_eq rfl rfl]
    obtain ⟨m, rfl⟩ : ∃ m, n = m + 2 := ⟨n - 2, by omega⟩
    have hu := lla2utm_runs h M m v
    generalize calls O M rangeCoordinates (m + 2) = C at *
    calc_run h [he, hu]

theorem ecef2ned_gives {O : Ops} (h : Ops.ieee = O) (M : Machine) (b b' : Bool) (ecef origin : Vec) :
    Gives (fun n => (calls O M rangeCoordinates n).method N.GPS N.ecef2ned [coords b ecef, coords b' origin])
      ((ecef2ned M.toLibm ecef origin).map (·.map npList)) := by
  have hs := Gives.step (run' := fun n => (calls O M rangeCoordinates n).method N.GPS N.ecef2ned [coords b ecef, coords b' origin])
    (fun llaOrigin => (do
    let Re2t ← ecefvec2nedvec M.toPlatform (deg2rad (llaOrigin 0)) (deg2rad (llaOrigin 1))
    return npList (M.matvec Re2t (vsub ecef origin)))) (ecef2lla_default_gives h M b' origin) rfl ?_ ?_
  · refine Eq.mp (congrArg (Gives _) ?_) hs
    unfold ecef2ned
    generalize ecef2lla M.toLibm origin defaultTolerance = r
    rcases r with _ | _ | v
    · rfl
    · rfl
    · simp only [Option.map_some, Except.bind]
      generalize ecefvec2nedvec M.toPlatform (deg2rad (v 0)) (deg2rad (v 1)) = w
      rcases w with _ | _ <;> rfl
  · intro n e he
    rw [method_eq rfl rfl]
    generalize calls O M rangeCoordinates n = C at *
    calc_run h [he]
  · intro n v hn he
    rw [method_eq rfl rfl]
    obtain ⟨m, rfl⟩ : ∃ m, n = m + 1 := ⟨n - 1, by omega⟩
    have hd := deg2rad_runs h M m
    generalize calls O M rangeCoordinates (m + 1) = C at *
    unfold ecefvec2nedvec
    calc_ops h [deg2rad] at hd ⊢
    calc_run h [he, hd]

theorem ned2ecef_gives {O : Ops} (h : Ops.ieee = O) (M : Machine) (b b' : Bool) (ned origin : Vec) :
    Gives (fun n => (calls O M rangeCoordinates n).method N.GPS N.ned2ecef [coords b ned, coords b' origin])
      ((ned2ecef M.toLibm ned origin).map (·.map npList)) := by
  have hs := Gives.step (run' := fun n => (calls O M rangeCoordinates n).method N.GPS N.ned2ecef [coords b ned, coords b' origin])
    (fun llaOrigin => (do
    let Re2t ← nedvec2ecefvec M.toPlatform (deg2rad (llaOrigin 0)) (deg2rad (llaOrigin 1))
    return npList (vadd (M.matvec Re2t ned) origin))) (ecef2lla_default_gives h M b' origin) rfl ?_ ?_
  · refine Eq.mp (congrArg (Gives _) ?_) hs
    unfold ned2ecef
    generalize ecef2lla M.toLibm origin defaultTolerance = r
    rcases r with _ | _ | v
    · rfl
    · rfl
    · simp only [Option.map_some, Except.bind]
      generalize nedvec2ecefvec M.toPlatform (deg2rad (v 0)) (deg2rad (v 1)) = w
      rcases w with _ | _ <;> rfl
  · intro n e he
    rw [method_eq rfl rfl]
    generalize calls O M rangeCoordinates n = C at *
    calc_run h [he]
  · intro n v hn he
    rw [method_eq rfl rfl]
    obtain ⟨m, rfl⟩ : ∃ m, n = m + 1 := ⟨n - 1, by omega⟩
    have hd := deg2rad_runs h M m
    generalize calls O M rangeCoordinates (m + 1) = C at *
    unfold nedvec2ecefvec
    calc_ops h [deg2rad] at hd ⊢
    calc_run h [he, hd]

end Dis.Calc
