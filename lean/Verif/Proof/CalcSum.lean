import Verif.Proof.Calc

/-!
# What the tree of `euclideanDistance` does
-/

namespace Dis.Calc
open Dbl
set_option exponentiation.threshold 3000
attribute [local irreducible] num classAttr item

theorem item_seq (b : Bool) (l r : List Val) (v : Val) : item (seq b (l ++ v :: r)) (.int (.ofNat l.length)) = .ok v := by
  unfold item
  cases b <;> simp [seq, elements, bind, Except.bind]

/-- The body of the loop of `euclideanDistance`. -/
def euclidBody : List Stmt :=
  [.ite (.cmp (.name N.dataRef) [(.is, .none)])
         [.augAdd N.total (.bin .pow (.index (.name N.data) (.name N.index)) (.int 2))]
         [.augAdd N.total (.bin .pow (.bin .sub (.index (.name N.data) (.name N.index)) (.index (.name N.dataRef) (.name N.index))) (.int 2))]]

/-- One round of the loop. -/
theorem euclid_round {O : Ops} (h : Ops.ieee = O) (M : Machine) (C : Calls) (n : Nat) (data i t : Val) (x tot : F64) (env : Env)
    (hd : look N.data env = some data) (hr : look N.dataRef env = some .none) (ht : look N.total env = some t)
    (hi : item data i = .ok (.float x)) (htot : t = .float tot ∨ t = .int 0 ∧ tot = num 0) :
    execs O M rangeCoordinates C n
      euclidBody
      ((N.index, i) :: env) = (do
        let s ← up (M.square x)
        return ((N.total, .float (O.add tot s)) :: (N.index, i) :: env, none)) := by
  rcases htot with rfl | ⟨rfl, rfl⟩ <;> calc_run h []

theorem euclid_loop {O : Ops} (h : Ops.ieee = O) (M : Machine) (C : Calls) (n : Nat) (b : Bool) (suf : List F64) :
    ∀ (pre : List F64) (t : Val) (tot : F64) (env : Env)
    (_ : look N.data env = some (seq b ((pre ++ suf).map .float))) (_ : look N.dataRef env = some .none)
    (_ : look N.total env = some t) (_ : look N.sqrt env = none) (_ : t = .float tot ∨ t = .int 0 ∧ tot = num 0),
    andThen (forLoop N.index (execs O M rangeCoordinates C n
      euclidBody)
      ((List.range' pre.length suf.length).map fun (i : Nat) => .int i) env)
      (fun env => finish (execs O M rangeCoordinates C n [.ret (.call N.sqrt [.name N.total] [])] env))
    = up ((do let t ← sumSquares M.toPlatform tot suf; O.sqrt t).map .float) := by
  induction suf with
  | nil =>
    intro pre t tot env _ _ ht hs htot
    rw [sumSquares]
    show finish (execs O M rangeCoordinates C n [.ret (.call N.sqrt [.name N.total] [])] env) = _
    rcases htot with rfl | ⟨rfl, rfl⟩ <;> calc_run h []
  | cons d suf ih =>
    intro pre t tot env hd hr ht hs htot
    have hi : item (seq b ((pre ++ d :: suf).map .float)) (.int (.ofNat pre.length)) = .ok (.float d) := by
      have := item_seq b (pre.map .float) (suf.map .float) (.float d)
      rw [List.length_map] at this
      rw [List.map_append, List.map_cons]; exact this
    rw [List.length_cons, List.range'_succ, List.map_cons, forLoop,
      euclid_round h M C n (seq b ((pre ++ d :: suf).map .float)) (.int (pre.length : Int)) t d tot env hd hr ht hi htot, sumSquares]
    cases hq : M.square d with
    | error e => simp only [bind, Except.bind, up, andThen, Except.map]
    | ok s =>
      have := ih (pre ++ [d]) (.float (O.add tot s)) (O.add tot s) ((N.total, .float (O.add tot s)) :: (N.index, .int (.ofNat pre.length)) :: env)
        (by rw [List.append_assoc, List.singleton_append]; exact hd) hr rfl hs (Or.inl rfl)
      rw [List.length_append, List.length_singleton] at this
      rw [← ops_add h] at *
      exact this

theorem euclideanDistance_runs {O : Ops} (h : Ops.ieee = O) (M : Machine) (n : Nat) (b : Bool) (l : List F64) :
    (calls O M rangeCoordinates (n + 1)).fn N.euclideanDistance [seq b (l.map .float)]
      = up ((euclideanDistance M.toPlatform l).map .float) := by
  rw [fn_eq rfl, invoke_at 2]
  have hb := euclid_loop h M (calls O M rangeCoordinates n) n b l [] (.int 0) (num 0)
    [(N.total, .int 0), (N.dataRef, .none), (N.data, seq b (l.map .float))] rfl rfl rfl rfl (.inr ⟨rfl, rfl⟩)
  unfold euclideanDistance
  rw [ops_sqrt h, ← hb]
  have hl : elements (seq b (l.map .float)) = .ok (l.map .float) := by cases b <;> rfl
  have hr : List.range' ([] : List F64).length l.length = List.range ((l.map Val.float).length : Int).toNat := by
    rw [List.length_map, Int.toNat_natCast]; exact List.range_eq_range'.symm
  rw [hr]
  generalize (l.map Val.float) = L at *
  generalize calls O M rangeCoordinates n = C at *
  have he : execs O M rangeCoordinates C n (List.take 2 rangeCoordinates.euclideanDistance.body)
      [(N.dataRef, .none), (N.data, seq b L)] = forLoop N.index (execs O M rangeCoordinates C n euclidBody)
        ((List.range (L.length : Int).toNat).map fun (i : Nat) => .int i) [(N.total, .int 0), (N.dataRef, .none), (N.data, seq b L)] := by
    have e2 : exec O M rangeCoordinates C n (.for N.index (.call N.range [.call N.len [.name N.data] []] []) euclidBody)
        [(N.total, .int 0), (N.dataRef, .none), (N.data, seq b L)] = forLoop N.index (execs O M rangeCoordinates C n euclidBody)
        ((List.range (L.length : Int).toNat).map fun (i : Nat) => .int i) [(N.total, .int 0), (N.dataRef, .none), (N.data, seq b L)] := by
      rw [exec]
      have : eval O M rangeCoordinates C (.call N.range [.call N.len [.name N.data] []] [])
        [(N.total, .int 0), (N.dataRef, .none), (N.data, seq b L)] = .ok (.list ((List.range (L.length : Int).toNat).map fun (i : Nat) => .int i)) := by
        calc_eval [hl]
      rw [this]; rfl
    show execs O M rangeCoordinates C n [.assign (.name N.total) (.int 0), .for N.index (.call N.range [.call N.len [.name N.data] []] []) euclidBody] _ = _
    rw [execs, show exec O M rangeCoordinates C n (.assign (.name N.total) (.int 0)) [(N.dataRef, .none), (N.data, seq b L)]
      = .ok ([(N.total, .int 0), (N.dataRef, .none), (N.data, seq b L)], none) from rfl]
    show execs O M rangeCoordinates C n [_] _ = _
    rw [execs, e2]
    cases forLoop N.index (execs O M rangeCoordinates C n euclidBody)
        ((List.range (L.length : Int).toNat).map fun (i : Nat) => .int i) [(N.total, .int 0), (N.dataRef, .none), (N.data, seq b L)] with
    | error e => rfl
    | ok r =>
      rcases r with ⟨env, _ | v⟩
      · show execs O M rangeCoordinates C n [] env = _
        rw [execs]
      · rfl
  show andThen (execs O M rangeCoordinates C n (List.take 2 rangeCoordinates.euclideanDistance.body)
      [(N.dataRef, .none), (N.data, seq b L)]) _ = _
  rw [he]
  rfl

end Dis.Calc
