import Verif.Proof.CalcSum

/-!
# What the trees of `ned2pae` and `lla2gcc` do
-/

namespace Dis.Calc
open Dbl
set_option exponentiation.threshold 3000
attribute [local irreducible] num classAttr euclideanDistance
attribute [local irreducible] Dbl.lla2ecef

theorem ned2pae_runs {O : Ops} (h : Ops.ieee = O) (M : Machine) (n : Nat) (b : Bool) (ned : Vec) :
    (calls O M rangeCoordinates (n + 2)).method N.GPS N.ned2pae [coords b ned]
      = up ((ned2pae M.toLibm ned).map (coords false)) := by
  rw [method_eq rfl rfl]
  have hd : (calls O M rangeCoordinates (n + 1)).fn N.euclideanDistance [coords b ned] = _ :=
    (euclideanDistance_runs h M n b [ned 0, ned 1, ned 2] :)
  have hr := rad2deg_runs h M n
  generalize calls O M rangeCoordinates (n + 1) = C at *
  calc_ops h [ned2pae, rad2deg] at hr ⊢
  calc_run h [hd, hr]

theorem each_float (M : Machine) {O : Ops} (X : Module) (C : Calls) (env : Env) (hf : look N.float env = none) (hX : look N.float X.imports = none)
   (hm : look N.float X.modules = none) (hc : look N.float X.functions = none) (hk : look N.float X.classes = none) (l : List String) :
   each (fun v => eval O M X C (.call N.float [.name N.c] []) ((N.c, v) :: env)) (l.map .str)
     = up ((l.mapM M.parse).map (List.map .float)) := by
  induction l with
  | nil => rfl
  | cons s l ih =>
    rw [List.map_cons, each, ih, List.mapM_cons]
    generalize (l.mapM M.parse) = r
    calc_eval []

theorem lla2gcc_runs {O : Ops} (h : Ops.ieee = O) (M : Machine) (n : Nat) (lla : Vec) :
    (calls O M rangeCoordinates (n + 3)).method N.GPS N.lla2gcc [point lla]
      = up ((lla2gcc M.toPlatform lla none).map point) := by
  rw [method_eq rfl rfl]
  have hl := lla2ecef_runs h M n
  generalize calls O M rangeCoordinates (n + 2) = C at *
  calc_ops h [lla2gcc]
  calc_run h [hl]

attribute [local irreducible] each String.isEmpty in
theorem lla2gcc_origin_runs {O : Ops} (h : Ops.ieee = O) (M : Machine) (n : Nat) (lla : Vec) (s : String) (hs : s.isEmpty = false) :
    (calls O M rangeCoordinates (n + 3)).method N.GPS N.lla2gcc [point lla, .str s]
      = up (do return point (← lla2gcc M.toPlatform lla (some (← numbers M s)))) := by
  rw [method_eq rfl rfl]
  have hl := lla2ecef_runs h M n
  have hl3 : ∀ x y z, (calls O M rangeCoordinates (n + 2)).method N.GPS N.lla2ecef [.tuple [.float x, .float y, .float z]] = _ :=
    fun x y z => (lla2ecef_runs h M n ![x, y, z] :)
  generalize calls O M rangeCoordinates (n + 2) = C at *
  have he := fun env h1 => each_float M (O := O) rangeCoordinates C env h1 rfl rfl rfl rfl (M.split s)
  unfold numbers
  generalize List.mapM M.parse (M.split s) = r at *
  calc_ops h [lla2gcc]
  rcases r with e | _ | ⟨x, _ | ⟨y, _ | ⟨z, _ | ⟨w, l⟩⟩⟩⟩ <;> calc_run h [he, hl lla, hl3, hs]
end Dis.Calc
