import Verif.Proof.CalcDr
import Verif.Proof.CalcFrames
import Verif.Model.Distance

/-!
# What the tree of `euclideanDistance` does with a second point, and `ned2ecef` and `ecef2ned` with numpy's floats
-/

namespace Dis.Calc
open Dbl
set_option exponentiation.threshold 3000

section
attribute [local irreducible] num classAttr item

theorem item_past (b : Bool) (l : List Val) (i : Nat) (hi : l.length ≤ i) :
    item (seq b l) (.int (.ofNat i)) = .error (.err .indexError) := by
  unfold item
  cases b <;> simp [seq, elements, bind, Except.bind, hi]

/-- One round of the loop. -/
theorem euclid_from_round {O : Ops} (h : Ops.ieee = O) (M : Machine) (C : Calls) (n : Nat) (b : Bool) (data i t : Val) (R : List Val)
    (x y tot : F64) (env : Env)
    (hd : look N.data env = some data) (hr : look N.dataRef env = some (seq b R)) (ht : look N.total env = some t)
    (hi : item data i = .ok (.float x)) (hj : item (seq b R) i = .ok (.float y)) (htot : t = .float tot ∨ t = .int 0 ∧ tot = num 0) :
    execs O M rangeCoordinates C n euclidBody ((N.index, i) :: env) = (do
        let s ← up (M.square (O.sub x y))
        return ((N.total, .float (O.add tot s)) :: (N.index, i) :: env, none)) := by
  cases b <;> simp only [seq] at hr hj <;> rcases htot with rfl | ⟨rfl, rfl⟩ <;> calc_run h [hj]

theorem euclid_from_end {O : Ops} (M : Machine) (C : Calls) (n : Nat) (b : Bool) (data i t : Val) (R : List Val)
    (x tot : F64) (env : Env)
    (hd : look N.data env = some data) (hr : look N.dataRef env = some (seq b R)) (ht : look N.total env = some t)
    (hi : item data i = .ok (.float x)) (hj : item (seq b R) i = .error (.err .indexError)) (htot : t = .float tot ∨ t = .int 0 ∧ tot = num 0) :
    execs O M rangeCoordinates C n euclidBody ((N.index, i) :: env) = .error (.err .indexError) := by
  cases b <;> simp only [seq] at hr hj <;> rcases htot with rfl | ⟨rfl, rfl⟩ <;> calc_eval [hj]

theorem euclid_from_loop {O : Ops} (h : Ops.ieee = O) (M : Machine) (C : Calls) (n : Nat) (b b' : Bool) (suf : List F64) :
    ∀ (suf' pre pre' : List F64) (t : Val) (tot : F64) (env : Env) (_ : pre.length = pre'.length)
    (_ : look N.data env = some (seq b ((pre ++ suf).map .float))) (_ : look N.dataRef env = some (seq b' ((pre' ++ suf').map .float)))
    (_ : look N.total env = some t) (_ : look N.sqrt env = none) (_ : t = .float tot ∨ t = .int 0 ∧ tot = num 0),
    andThen (forLoop N.index (execs O M rangeCoordinates C n
      euclidBody)
      ((List.range' pre.length suf.length).map fun (i : Nat) => .int i) env)
      (fun env => finish (execs O M rangeCoordinates C n [.ret (.call N.sqrt [.name N.total] [])] env))
    = up ((do let t ← sumSquaresFrom M.toPlatform tot suf suf'; O.sqrt t).map .float) := by
  induction suf with
  | nil =>
    intro suf' pre pre' t tot env _ _ _ ht hs htot
    rw [sumSquaresFrom]
    show finish (execs O M rangeCoordinates C n [.ret (.call N.sqrt [.name N.total] [])] env) = _
    rcases htot with rfl | ⟨rfl, rfl⟩ <;> calc_run h []
  | cons d suf ih =>
    intro suf' pre pre' t tot env hp hd hr ht hs htot
    have hi : item (seq b ((pre ++ d :: suf).map .float)) (.int (.ofNat pre.length)) = .ok (.float d) := by
      have := item_seq b (pre.map .float) (suf.map .float) (.float d)
      rw [List.length_map] at this
      rw [List.map_append, List.map_cons]; exact this
    cases suf' with
    | nil =>
      have hj := item_past b' ((pre' ++ []).map .float) pre.length (by simp [hp])
      rw [List.length_cons, List.range'_succ, List.map_cons, forLoop,
        euclid_from_end M C n b' (seq b ((pre ++ d :: suf).map .float)) (.int (pre.length : Int)) t _ d tot env hd hr ht hi hj htot,
        sumSquaresFrom]
      rfl
    | cons r suf' =>
    have hj : item (seq b' ((pre' ++ r :: suf').map .float)) (.int (.ofNat pre.length)) = .ok (.float r) := by
      have := item_seq b' (pre'.map .float) (suf'.map .float) (.float r)
      rw [List.length_map, ← hp] at this
      rw [List.map_append, List.map_cons]; exact this
    rw [List.length_cons, List.range'_succ, List.map_cons, forLoop,
      euclid_from_round h M C n b' (seq b ((pre ++ d :: suf).map .float)) (.int (pre.length : Int)) t _ d r tot env hd hr ht hi hj htot,
      sumSquaresFrom, ops_sub h]
    cases hq : M.square (O.sub d r) with
    | error e => simp only [bind, Except.bind, up, andThen, Except.map]
    | ok s =>
      have := ih suf' (pre ++ [d]) (pre' ++ [r]) (.float (O.add tot s)) (O.add tot s)
        ((N.total, .float (O.add tot s)) :: (N.index, .int (.ofNat pre.length)) :: env) (by simp [hp])
        (by rw [List.append_assoc, List.singleton_append]; exact hd)
        (by rw [List.append_assoc, List.singleton_append]; exact hr) rfl hs (Or.inl rfl)
      rw [List.length_append, List.length_singleton] at this
      rw [← ops_add h] at *
      exact this

theorem euclideanDistanceFrom_runs {O : Ops} (h : Ops.ieee = O) (M : Machine) (n : Nat) (b b' : Bool) (l r : List F64) :
    (calls O M rangeCoordinates (n + 1)).fn N.euclideanDistance [seq b (l.map .float), seq b' (r.map .float)]
      = up ((euclideanDistanceFrom M.toPlatform l r).map .float) := by
  rw [fn_eq rfl, invoke_at 2]
  have hb := euclid_from_loop h M (calls O M rangeCoordinates n) n b b' l r [] [] (.int 0) (num 0)
    [(N.total, .int 0), (N.dataRef, seq b' (r.map .float)), (N.data, seq b (l.map .float))] rfl rfl rfl rfl rfl (.inr ⟨rfl, rfl⟩)
  unfold euclideanDistanceFrom
  rw [ops_sqrt h, ← hb]
  have hl : elements (seq b (l.map .float)) = .ok (l.map .float) := by cases b <;> rfl
  have hr : List.range' ([] : List F64).length l.length = List.range ((l.map Val.float).length : Int).toNat := by
    rw [List.length_map, Int.toNat_natCast]; exact List.range_eq_range'.symm
  rw [hr]
  generalize (l.map Val.float) = L at *
  generalize seq b' (r.map Val.float) = R at *
  generalize calls O M rangeCoordinates n = C at *
  have he : execs O M rangeCoordinates C n (List.take 2 rangeCoordinates.euclideanDistance.body)
      [(N.dataRef, R), (N.data, seq b L)] = forLoop N.index (execs O M rangeCoordinates C n euclidBody)
        ((List.range (L.length : Int).toNat).map fun (i : Nat) => .int i) [(N.total, .int 0), (N.dataRef, R), (N.data, seq b L)] := by
    have e2 : exec O M rangeCoordinates C n (.for N.index (.call N.range [.call N.len [.name N.data] []] []) euclidBody)
        [(N.total, .int 0), (N.dataRef, R), (N.data, seq b L)] = forLoop N.index (execs O M rangeCoordinates C n euclidBody)
        ((List.range (L.length : Int).toNat).map fun (i : Nat) => .int i) [(N.total, .int 0), (N.dataRef, R), (N.data, seq b L)] := by
      rw [exec]
      have : eval O M rangeCoordinates C (.call N.range [.call N.len [.name N.data] []] [])
        [(N.total, .int 0), (N.dataRef, R), (N.data, seq b L)] = .ok (.list ((List.range (L.length : Int).toNat).map fun (i : Nat) => .int i)) := by
        calc_eval [hl]
      rw [this]; rfl
    show execs O M rangeCoordinates C n [.assign (.name N.total) (.int 0), .for N.index (.call N.range [.call N.len [.name N.data] []] []) euclidBody] _ = _
    rw [execs, show exec O M rangeCoordinates C n (.assign (.name N.total) (.int 0)) [(N.dataRef, R), (N.data, seq b L)]
      = .ok ([(N.total, .int 0), (N.dataRef, R), (N.data, seq b L)], none) from rfl]
    show execs O M rangeCoordinates C n [_] _ = _
    rw [execs, e2]
    cases forLoop N.index (execs O M rangeCoordinates C n euclidBody)
        ((List.range (L.length : Int).toNat).map fun (i : Nat) => .int i) [(N.total, .int 0), (N.dataRef, R), (N.data, seq b L)] with
    | error e => rfl
    | ok r =>
      rcases r with ⟨env, _ | v⟩
      · show execs O M rangeCoordinates C n [] env = _
        rw [execs]
      · rfl
  show andThen (execs O M rangeCoordinates C n (List.take 2 rangeCoordinates.euclideanDistance.body)
      [(N.dataRef, R), (N.data, seq b L)]) _ = _
  rw [he]
  rfl

end

section
attribute [local irreducible] num classAttr Dbl.lla2utm Dbl.lla2ecef Dbl.rotate_3x3 Dbl.ecefvec2nedvec Dbl.ned2pae

theorem ned2ecef_np {O : Ops} (h : Ops.ieee = O) (M : Machine) (b' : Bool) (ned origin : Vec) :
    Gives (fun n => (calls O M rangeCoordinates n).method N.GPS N.ned2ecef [npList ned, coords b' origin])
      ((ned2ecef M.toLibm ned origin).map (·.map npList)) := by
  have hs := Gives.step (run' := fun n => (calls O M rangeCoordinates n).method N.GPS N.ned2ecef [npList ned, coords b' origin])
    (fun llaOrigin => (do
    let Re2t ← nedvec2ecefvec M.toPlatform (deg2rad (llaOrigin 0)) (deg2rad (llaOrigin 1))
    return npList (vadd (M.matvec Re2t ned) origin))) (ecef2lla_default_gives h M b' origin) rfl ?_ ?_
  · refine Eq.mp (congrArg (Gives _) ?_) hs
    unfold ned2ecef
    generalize ecef2lla M.toLibm origin defaultTolerance = r
    rcases r with _ | _ | v
    · rfl
    · rfl
    · simp only [Option.map_some, Except.bind]
      generalize nedvec2ecefvec M.toPlatform (deg2rad (v 0)) (deg2rad (v 1)) = w
      rcases w with _ | _ <;> rfl
  · intro n e he
    rw [method_eq rfl rfl]
    generalize calls O M rangeCoordinates n = C at *
    calc_run h [he]
  · intro n v hn he
    rw [method_eq rfl rfl]
    obtain ⟨m, rfl⟩ : ∃ m, n = m + 1 := ⟨n - 1, by omega⟩
    have hd := deg2rad_runs h M m
    generalize calls O M rangeCoordinates (m + 1) = C at *
    unfold nedvec2ecefvec
    calc_ops h [deg2rad] at hd ⊢
    calc_run h [he, hd]

theorem ecef2ned_np {O : Ops} (h : Ops.ieee = O) (M : Machine) (b' : Bool) (ecef origin : Vec) :
    Gives (fun n => (calls O M rangeCoordinates n).method N.GPS N.ecef2ned [npList ecef, coords b' origin])
      ((ecef2ned M.toLibm ecef origin).map (·.map npList)) := by
  have hs := Gives.step (run' := fun n => (calls O M rangeCoordinates n).method N.GPS N.ecef2ned [npList ecef, coords b' origin])
    (fun llaOrigin => (do
    let Re2t ← ecefvec2nedvec M.toPlatform (deg2rad (llaOrigin 0)) (deg2rad (llaOrigin 1))
    return npList (M.matvec Re2t (vsub ecef origin)))) (ecef2lla_default_gives h M b' origin) rfl ?_ ?_
  · refine Eq.mp (congrArg (Gives _) ?_) hs
    unfold ecef2ned
    generalize ecef2lla M.toLibm origin defaultTolerance = r
    rcases r with _ | _ | v
    · rfl
    · rfl
    · simp only [Option.map_some, Except.bind]
      generalize ecefvec2nedvec M.toPlatform (deg2rad (v 0)) (deg2rad (v 1)) = w
      rcases w with _ | _ <;> rfl
  · intro n e he
    rw [method_eq rfl rfl]
    generalize calls O M rangeCoordinates n = C at *
    calc_run h [he]
  · intro n v hn he
    rw [method_eq rfl rfl]
    obtain ⟨m, rfl⟩ : ∃ m, n = m + 1 := ⟨n - 1, by omega⟩
    have hd := deg2rad_runs h M m
    generalize calls O M rangeCoordinates (m + 1) = C at *
    unfold ecefvec2nedvec
    calc_ops h [deg2rad] at hd ⊢
    calc_run h [he, hd]

end

section
attribute [local irreducible] num floatArray

theorem get_angular_velocity_matrix_runs (M : Machine) (n : Nat) (w : Vec) :
    (calls .ieee M deadReckoning (n + 1)).fn N.get_angular_velocity_matrix [.arr w]
      = up (.ok (.mat (get_angular_velocity_matrix w))) := by
  generalize h : Ops.ieee = O
  calc_run h []
  all_goals (subst h; rfl)

theorem get_rotation_matrix_floats (M : Machine) (n : Nat) (psi theta phi : F64) :
    (calls .ieee M deadReckoning (n + 1)).fn N.get_rotation_matrix [.float psi, .float theta, .float phi]
      = up ((get_rotation_matrix M.toPlatform psi theta phi).map .mat) := by
  generalize h : Ops.ieee = O
  calc_ops h [get_rotation_matrix]
  calc_run h []

end

end Dis.Calc
