import Verif.Proof.CalcSum

/-!
# What the tree of `ecef2lla` does
-/

namespace Dis.Calc
open Dbl
set_option exponentiation.threshold 3000
attribute [local irreducible] num classAttr

/-- `x == 0`. -/
theorem eq_zero (x : F64) : (F64.le x (num 0) && F64.le (num 0) x) = decide (x.mag = 0) := by
  have hn : (num 0).isNan = false := by decide +kernel
  have hu : (num 0).units = 0 := by decide +kernel
  unfold F64.le
  rw [hn, hu]
  by_cases hx : x.mag = 0
  · have hnan : x.isNan = false := by
      unfold F64.isNan
      unfold F64.mag at hx
      have h0 : x.expo = 0 := by
        by_contra h0
        rw [if_neg h0] at hx
        rcases Nat.mul_eq_zero.1 hx with h | h
        · omega
        · exact absurd h (Nat.pos_iff_ne_zero.1 (Nat.pow_pos (by decide)))
      exact decide_eq_false (fun hh => by omega)
    have hux : x.units = 0 := by unfold F64.units; split <;> omega
    rw [hnan, hux, decide_eq_true hx]; rfl
  · rw [decide_eq_false hx]
    have hux : x.units ≠ 0 := by unfold F64.units; split <;> omega
    by_cases hp : x.units ≤ 0
    · rw [decide_eq_false (show ¬ (0 : Int) ≤ x.units by omega)]; simp
    · rw [decide_eq_false hp]; simp

/-- The loop and the end of `ecef2lla`. -/
def ecef2lla_finish (lon : F64) : Except PyErr LoopState → Except PyErr Vec
  | .error err => .error err
  | .ok s => .ok ![rad2deg s.lat, rad2deg lon, s.alt]

/-- The loop with at most so many rounds. -/
def rounds (L : Libm) (p z tolerance : F64) : Nat → LoopState → Option (Except PyErr LoopState)
  | 0, _ => none
  | n + 1, s =>
    match F64.le tolerance (F64.abs (F64.sub s.lat s.previousLat)) with
    | false => some (.ok s)
    | true =>
      match ecef2lla_body L p z s with
      | .error err => some (.error err)
      | .ok s => rounds L p z tolerance n s

/-- How the loop variables are represented: integers at first. -/
inductive Vars : LoopState → Val → Val → Val → Prop
  | first : Vars ecef2lla_init (.int 0) (.int 90) (.int 0)
  | second (s : LoopState) : s.previousLat = num 0 → Vars s (.float s.lat) (.int 0) (.float s.alt)
  | later (s : LoopState) : Vars s (.float s.lat) (.float s.previousLat) (.float s.alt)

theorem first_step : F64.abs (F64.sub (num 0) (num 90)) = num 90 := by decide +kernel

/-- The body of the loop of `ecef2lla`. -/
def llaBody : List Stmt :=
  [.assign (.name N.previousLat) (.name N.lat),
       .assign (.name N.sinLat) (.bin .div (.name N.z) (.bin .add (.bin .mul (.name N.N) (.bin .sub (.int 1) (.bin .pow (.attr (.attr (.name N.self) N.wgs84) N.e) (.int 2)))) (.name N.alt))),
       .assign (.name N.lat) (.call N.atan [.bin .div (.bin .add (.name N.z) (.bin .mul (.bin .mul (.bin .pow (.attr (.attr (.name N.self) N.wgs84) N.e) (.int 2)) (.name N.N)) (.name N.sinLat))) (.name N.p)] []),
       .assign (.name N.N) (.bin .div (.attr (.attr (.name N.self) N.wgs84) N.a) (.call N.sqrt [.bin .sub (.int 1) (.bin .pow (.bin .mul (.attr (.attr (.name N.self) N.wgs84) N.e) (.name N.sinLat)) (.int 2))] [])),
       .assign (.name N.alt) (.bin .sub (.bin .div (.name N.p) (.call N.cos [.name N.lat] [])) (.name N.N))]

/-- The test of the loop. -/
def llaTest : Expr := .cmp (.call N.abs [.bin .sub (.name N.lat) (.name N.previousLat)] []) [(.ge, .name N.tolerance)]

/-- What the loop variables are bound to. -/
structure Bound (p z lon tolerance : F64) (s : LoopState) (env : Env) : Prop where
  self : look N.self env = some (.obj N.GPS)
  pp : look N.p env = some (.float p)
  zz : look N.z env = some (.float z)
  lon : look N.lon env = some (.float lon)
  tol : look N.tolerance env = some (.float tolerance)
  nn : look N.N env = some (.float s.N)
  vars : ∃ vl vp va, Vars s vl vp va ∧ look N.lat env = some vl ∧ look N.previousLat env = some vp ∧ look N.alt env = some va
  atan : look N.atan env = none
  sqrt : look N.sqrt env = none
  cos : look N.cos env = none
  abs : look N.abs env = none

theorem lla_test {O : Ops} (h : Ops.ieee = O) (M : Machine) (C : Calls) {p z lon tolerance : F64} {s : LoopState} {env : Env}
    (hb : Bound p z lon tolerance s env) :
    (do truth (← eval O M rangeCoordinates C llaTest env)) = .ok (F64.le tolerance (F64.abs (F64.sub s.lat s.previousLat))) := by
  suffices hc : (do truth (← eval O M rangeCoordinates C llaTest env)) =
      cond (F64.le tolerance (F64.abs (F64.sub s.lat s.previousLat))) (.ok true) (.ok false) by
    rw [hc]; cases F64.le tolerance (F64.abs (F64.sub s.lat s.previousLat)) <;> rfl
  obtain ⟨_, _, _, _, h5, _, ⟨vl, vp, va, hv, h7, h8, h9⟩, _, _, _, h4⟩ := hb
  have hf := first_step
  cases hv with
  | first =>
    rw [show ecef2lla_init.lat = num 0 from rfl, show ecef2lla_init.previousLat = num 90 from rfl]
    rw [hf]
    calc_ops h [id] at hf ⊢
    calc_run h [hf]
  | second s hs =>
    rw [hs]
    calc_ops h [id]
    calc_run h []
  | later s =>
    calc_ops h [id]
    calc_run h []

/-- The variables after a round. -/
def afterBody (s : LoopState) (vl : Val) (sinLat : F64) (env : Env) : Env :=
  (N.alt, .float s.alt) :: (N.N, .float s.N) :: (N.lat, .float s.lat) :: (N.sinLat, .float sinLat) :: (N.previousLat, vl) :: env

theorem lla_body {O : Ops} (h : Ops.ieee = O) (M : Machine) (C : Calls) (n : Nat) {p z lon tolerance : F64} {s : LoopState} {env : Env}
    (ha : C.attr N.WGS84 N.a = .ok (.float WGS84.a)) (he : C.attr N.WGS84 N.e = .ok (.float WGS84.e))
    (hw : C.attr N.GPS N.wgs84 = .ok (.obj N.WGS84))
    (hb : Bound p z lon tolerance s env) :
    match ecef2lla_body M.toLibm p z s with
    | .error e => execs O M rangeCoordinates C n llaBody env = .error (.err e)
    | .ok s' => ∃ env', execs O M rangeCoordinates C n llaBody env = .ok (env', none) ∧ Bound p z lon tolerance s' env' := by
  obtain ⟨h1, h2, h3, h4, h5, h6, ⟨vl, vp, va, hv, h7, h8, h9⟩, h10, h11, h12, h13⟩ := hb
  have key : ∀ alt, (va = .float alt ∨ va = .int 0 ∧ alt = num 0) → s.alt = alt →
     execs O M rangeCoordinates C n llaBody env = up (do
       let e2 ← M.square WGS84.e
       let sinLat ← O.pyDiv z (O.add (O.mul s.N (O.sub (num 1) e2)) alt)
       let s' ← ecef2lla_body M.toLibm p z s
       return (afterBody s' vl sinLat env, none)) := by
    rintro alt (rfl | ⟨rfl, rfl⟩) hs <;> calc_ops h [ecef2lla_body, normal, hs] <;> calc_run h []
  have fin : ∀ s', ecef2lla_body M.toLibm p z s = .ok s' → s'.previousLat = s.lat := by
    intro s' hs'
    unfold ecef2lla_body at hs'
    simp only [bind, Except.bind] at hs'
    repeat' split at hs'
    all_goals first | (exact absurd hs' (by simp)) | (cases hs'; rfl)
  have key' : ∃ alt, (va = .float alt ∨ va = .int 0 ∧ alt = num 0) ∧ s.alt = alt ∧ (vl = .float s.lat ∨ vl = .int 0 ∧ s.lat = num 0) := by
    cases hv with
    | first => exact ⟨num 0, .inr ⟨rfl, rfl⟩, rfl, .inr ⟨rfl, rfl⟩⟩
    | second => exact ⟨_, .inl rfl, rfl, .inl rfl⟩
    | later => exact ⟨_, .inl rfl, rfl, .inl rfl⟩
  obtain ⟨alt, k1, k2, k3⟩ := key'
  rw [key alt k1 k2]
  have hpre : match ecef2lla_body M.toLibm p z s with
      | .error e => (do
          let e2 ← M.square WGS84.e
          let sinLat ← O.pyDiv z (O.add (O.mul s.N (O.sub (num 1) e2)) alt)
          let s' ← ecef2lla_body M.toLibm p z s
          return (afterBody s' vl sinLat env, (none : Option Val))) = .error e
      | .ok s' => ∃ sl, (do
          let e2 ← M.square WGS84.e
          let sinLat ← O.pyDiv z (O.add (O.mul s.N (O.sub (num 1) e2)) alt)
          let s' ← ecef2lla_body M.toLibm p z s
          return (afterBody s' vl sinLat env, (none : Option Val))) = .ok (afterBody s' vl sl env, none) := by
    subst h
    rw [← k2]
    show match ecef2lla_body M.toLibm p z s with
      | .error e => (do
          let e2 ← M.square WGS84.e
          let sinLat ← F64.pyDiv z (F64.add (F64.mul s.N (F64.sub (num 1) e2)) s.alt)
          let s' ← ecef2lla_body M.toLibm p z s
          return (afterBody s' vl sinLat env, (none : Option Val))) = .error e
      | .ok s' => ∃ sl, (do
          let e2 ← M.square WGS84.e
          let sinLat ← F64.pyDiv z (F64.add (F64.mul s.N (F64.sub (num 1) e2)) s.alt)
          let s' ← ecef2lla_body M.toLibm p z s
          return (afterBody s' vl sinLat env, (none : Option Val))) = .ok (afterBody s' vl sl env, none)
    cases h1 : M.square WGS84.e with
    | error e =>
      have : ecef2lla_body M.toLibm p z s = .error e := by unfold ecef2lla_body; rw [h1]; rfl
      rw [this]; rfl
    | ok e2 =>
      cases h2 : F64.pyDiv z (F64.add (F64.mul s.N (F64.sub (num 1) e2)) s.alt) with
      | error e =>
        have : ecef2lla_body M.toLibm p z s = .error e := by
          unfold ecef2lla_body; rw [h1]; simp only [bind, Except.bind]; rw [h2]
        rw [this]; simp only [bind, Except.bind]; rw [h2]
      | ok sl =>
        cases ecef2lla_body M.toLibm p z s with
        | error e => simp only [bind, Except.bind]; rw [h2]
        | ok s' => exact ⟨sl, by simp only [bind, Except.bind]; rw [h2]; rfl⟩
  cases hs : ecef2lla_body M.toLibm p z s with
  | error e =>
    simp only [hs] at hpre ⊢
    rw [hpre]; rfl
  | ok s' =>
    simp only [hs] at hpre ⊢
    obtain ⟨sl, hsl⟩ := hpre
    refine ⟨_, by rw [hsl]; rfl, ?_⟩
    have hp := fin s' hs
    refine ⟨h1, h2, h3, h4, h5, rfl, ⟨.float s'.lat, vl, .float s'.alt, ?_, rfl, rfl, rfl⟩, h10, h11, h12, h13⟩
    rcases k3 with rfl | ⟨rfl, hl⟩
    · rw [← hp]; exact .later s'
    · exact .second s' (hp.trans hl)

/-- What a call is left with after the loop. -/
def loopEnd (lon : F64) : Option (Except PyErr LoopState) → Res Val
  | none => .error .fuel
  | some (.error e) => .error (.err e)
  | some (.ok s) => .ok (.tuple [.float (rad2deg s.lat), .float (rad2deg lon), .float s.alt])

theorem lla_while {O : Ops} (h : Ops.ieee = O) (M : Machine) (C : Calls) (k : Nat) {p z lon tolerance : F64}
    (ha : C.attr N.WGS84 N.a = .ok (.float WGS84.a)) (he : C.attr N.WGS84 N.e = .ok (.float WGS84.e))
    (hw : C.attr N.GPS N.wgs84 = .ok (.obj N.WGS84)) (hr : ∀ x, C.fn N.rad2deg [.float x] = .ok (.float (rad2deg x)))
    (htol : F64.le tolerance (num 90) = true) (n : Nat) :
    ∀ {s : LoopState} {env : Env} (_ : Bound p z lon tolerance s env),
    andThen (whileLoop (fun env => do truth (← eval O M rangeCoordinates C llaTest env)) (execs O M rangeCoordinates C k llaBody) n env)
      (fun env => finish (execs O M rangeCoordinates C k
        [.ret (.tuple [.call N.rad2deg [.name N.lat] [], .call N.rad2deg [.name N.lon] [], .name N.alt])] env))
      = loopEnd lon (rounds M.toLibm p z tolerance n s) := by
  induction n with
  | zero => intro s env _; rfl
  | succ n ih =>
    intro s env hb
    rw [whileLoop, lla_test h M C hb, rounds]
    cases ht : F64.le tolerance (F64.abs (F64.sub s.lat s.previousLat)) with
    | false =>
      show finish (execs O M rangeCoordinates C k
        [.ret (.tuple [.call N.rad2deg [.name N.lat] [], .call N.rad2deg [.name N.lon] [], .name N.alt])] env) = .ok _
      obtain ⟨h1, h2, h3, h4, h5, h6, ⟨vl, vp, va, hv, h7, h8, h9⟩, h10, h11, h12, h13⟩ := hb
      cases hv with
      | first =>
        rw [show ecef2lla_init.lat = num 0 from rfl, show ecef2lla_init.previousLat = num 90 from rfl, first_step, htol] at ht
        exact absurd ht (by decide)
      | second s hs => calc_run h [hr]
      | later s => calc_run h [hr]
    | true =>
      have hbody := lla_body h M C k ha he hw hb
      cases hs : ecef2lla_body M.toLibm p z s with
      | error e =>
        simp only [hs] at hbody
        simp only [bind, Except.bind, hbody, andThen, loopEnd]
      | ok s' =>
        simp only [hs] at hbody
        obtain ⟨env', h1, h2⟩ := hbody
        simp only [bind, Except.bind, h1]
        exact ih h2


/-- The part of `ecef2lla` before the loop: a result, or what the loop needs. -/
def llaStart (L : Libm) (ecef : Vec) (K : F64 → Res Val) : Res Val :=
  match (do let x2 ← L.square (ecef 0); let y2 ← L.square (ecef 1); F64.sqrt (F64.add x2 y2) : Except PyErr F64) with
  | .error err => .error (.err err)
  | .ok p =>
    cond (F64.le (ecef 0) (num 0) && F64.le (num 0) (ecef 0))
      (cond (F64.le (ecef 1) (num 0) && F64.le (num 0) (ecef 1))
        (cond (F64.lt (num 0) (ecef 2)) (.ok (.tuple [.float (num 90), .float (num 69), .float (round2 (F64.sub (ecef 2) WGS84.b))]))
          (cond (F64.lt (ecef 2) (num 0))
            (.ok (.tuple [.float (F64.neg (num 90)), .float (num 69), .float (round2 (F64.sub (F64.neg (ecef 2)) WGS84.b))]))
            (.error (.err .exception))))
        (K p))
      (K p)

theorem lla_pre {O : Ops} (h : Ops.ieee = O) (M : Machine) (C : Calls) (n : Nat) (b : Bool) (ecef : Vec) (tolerance : F64)
    (ha : C.attr N.WGS84 N.a = .ok (.float WGS84.a)) (hbb : C.attr N.WGS84 N.b = .ok (.float WGS84.b))
    (hw : C.attr N.GPS N.wgs84 = .ok (.obj N.WGS84)) (K : Env → Res Val) (R : F64 → Res Val)
    (hK : ∀ p env, look N.self env = some (.obj N.GPS) → look N.p env = some (.float p) → look N.z env = some (.float (ecef 2)) →
      look N.lon env = some (.float (M.atan2 (ecef 1) (ecef 0))) → look N.tolerance env = some (.float tolerance) →
      look N.N env = some (.float WGS84.a) → look N.lat env = some (.int 0) → look N.previousLat env = some (.int 90) →
      look N.alt env = some (.int 0) → look N.atan env = none → look N.sqrt env = none → look N.cos env = none →
      look N.abs env = none → K env = R p) :
    andThen (execs O M rangeCoordinates C n (rangeCoordinates.GPS.ecef2lla.body.take 10)
      [(N.tolerance, .float tolerance), (N.ecef, coords b ecef), (N.self, .obj N.GPS)]) K
      = llaStart M.toLibm ecef R := by
  calc_ops h [llaStart]
  calc_run h [hK]


theorem rounds_ends (L : Libm) (p z tolerance : F64) (N : Nat) (hN : ecef2lla_leaves L p z tolerance N)
    (hmin : ∀ j < N, ¬ ecef2lla_leaves L p z tolerance j) (d : Nat) :
    ∀ (k n : Nat) (s : LoopState), k + d = N → d < n → ecef2lla_after L p z k = .ok s →
      rounds L p z tolerance n s = some (ecef2lla_after L p z N) := by
  induction d with
  | zero =>
    intro k n s hk hn hs
    obtain rfl : k = N := hk
    obtain ⟨m, rfl⟩ : ∃ m, n = m + 1 := ⟨n - 1, by omega⟩
    unfold ecef2lla_leaves at hN
    simp only [hs] at hN ⊢
    rw [rounds, hN]
  | succ d ih =>
    intro k n s hk hn hs
    obtain ⟨m, rfl⟩ : ∃ m, n = m + 1 := ⟨n - 1, by omega⟩
    have hl := hmin k (by omega)
    unfold ecef2lla_leaves at hl
    simp only [hs, Bool.not_eq_false] at hl
    rw [rounds, hl]
    have ha : ecef2lla_after L p z (k + 1) = ecef2lla_body L p z s := by
      rw [ecef2lla_after, hs]
    cases hb : ecef2lla_body L p z s with
    | error e =>
      rw [hb] at ha
      have : N = k + 1 := by
        by_contra hne
        refine hmin (k + 1) (by omega) ?_
        unfold ecef2lla_leaves
        rw [ha]; trivial
      subst this
      simp only [ha]
    | ok s' =>
      rw [hb] at ha
      exact ih (k + 1) m s' (by omega) (by omega) ha

theorem rounds_never (L : Libm) (p z tolerance : F64) (hN : ∀ j, ¬ ecef2lla_leaves L p z tolerance j) (n : Nat) :
    ∀ (k : Nat) (s : LoopState), ecef2lla_after L p z k = .ok s → rounds L p z tolerance n s = none := by
  induction n with
  | zero => intro k s _; rfl
  | succ n ih =>
    intro k s hs
    have hl := hN k
    unfold ecef2lla_leaves at hl
    simp only [hs, Bool.not_eq_false] at hl
    rw [rounds, hl]
    have ha : ecef2lla_after L p z (k + 1) = ecef2lla_body L p z s := by
      rw [ecef2lla_after, hs]
    cases hb : ecef2lla_body L p z s with
    | error e =>
      rw [hb] at ha
      refine absurd ?_ (hN (k + 1))
      unfold ecef2lla_leaves
      rw [ha]; trivial
    | ok s' =>
      rw [hb] at ha
      exact ih (k + 1) s' ha

/-- The rounds agree with the loop of the model. -/
theorem rounds_loop (L : Libm) (p z tolerance : F64) :
    match ecef2lla_loop L p z tolerance with
    | some r => ∃ n₀, ∀ n ≥ n₀, rounds L p z tolerance n ecef2lla_init = some r
    | none => ∀ n, rounds L p z tolerance n ecef2lla_init = none := by
  classical
  unfold ecef2lla_loop
  by_cases h : ∃ n, ecef2lla_leaves L p z tolerance n
  · simp only [dif_pos h]
    refine ⟨Nat.find h + 1, fun n hn => ?_⟩
    exact rounds_ends L p z tolerance (Nat.find h) (Nat.find_spec h) (fun j hj => Nat.find_min h hj) (Nat.find h) 0 n _
      (by omega) (by omega) rfl
  · simp only [dif_neg h]
    exact fun n => rounds_never L p z tolerance (fun j hj => h ⟨j, hj⟩) n 0 _ rfl

theorem ecef2lla_rounds {O : Ops} (h : Ops.ieee = O) (M : Machine) (n : Nat) (b : Bool) (ecef : Vec) (tolerance : F64)
    (htol : F64.le tolerance (num 90) = true) :
    (calls O M rangeCoordinates (n + 1)).method N.GPS N.ecef2lla [coords b ecef, .float tolerance]
      = llaStart M.toLibm ecef fun p => loopEnd (M.atan2 (ecef 1) (ecef 0)) (rounds M.toLibm p (ecef 2) tolerance n ecef2lla_init) := by
  rw [method_eq rfl rfl, invoke_at 10]
  have ha := attr_a M h
  have hb := attr_b M h
  have he := attr_e M h
  have hw := attr_wgs84 M h
  have hr : ∀ m, n = m + 1 → ∀ x, (calls O M rangeCoordinates n).fn N.rad2deg [.float x] = .ok (.float (rad2deg x)) := by
    rintro m rfl; exact rad2deg_runs h M m
  rw [← attr_eq O M rangeCoordinates n] at ha hb he hw
  generalize calls O M rangeCoordinates n = C at *
  refine (lla_pre h M C n b ecef tolerance ha hb hw
    (fun env => finish (execs O M rangeCoordinates C n (rangeCoordinates.GPS.ecef2lla.body.drop 10) env)) _ ?_ :)
  intro p env h1 h2 h3 h4 h5 h6 h7 h8 h9 h10 h11 h12 h13
  rcases n with _ | n
  · rfl
  rw [← lla_while h M C (n + 1) ha he hw (hr n rfl) htol (n + 1) ⟨h1, h2, h3, h4, h5, h6, ⟨_, _, _, .first, h7, h8, h9⟩, h10, h11, h12, h13⟩]
  show finish (execs O M rangeCoordinates C (n + 1) [.while llaTest llaBody,
    .ret (.tuple [.call N.rad2deg [.name N.lat] [], .call N.rad2deg [.name N.lon] [], .name N.alt])] env) = _
  rw [execs, exec]
  generalize whileLoop _ _ (n + 1) env = w
  rcases w with e | ⟨env, _ | v⟩ <;> rfl

theorem point_vec (x y z : F64) : point ![x, y, z] = .tuple [.float x, .float y, .float z] := rfl

/-- What a call returns after the loop. -/
def loopVec (lon : F64) : Option (Except PyErr LoopState) → Option (Except PyErr Vec)
  | none => none
  | some (.error err) => some (.error err)
  | some (.ok s) => some (.ok ![rad2deg s.lat, rad2deg lon, s.alt])

theorem ecef2lla_gives {O : Ops} (h : Ops.ieee = O) (M : Machine) (b : Bool) (ecef : Vec) (tolerance : F64)
    (htol : F64.le tolerance (num 90) = true) :
    Gives (fun n => (calls O M rangeCoordinates n).method N.GPS N.ecef2lla [coords b ecef, .float tolerance])
      ((ecef2lla M.toLibm ecef tolerance).map (·.map point)) := by
  have hrun := fun n => ecef2lla_rounds h M n b ecef tolerance htol
  unfold llaStart at hrun
  unfold ecef2lla
  dsimp only
  simp only [eq_zero] at hrun
  generalize (do let x2 ← M.square (ecef 0); let y2 ← M.square (ecef 1); F64.sqrt (F64.add x2 y2) : Except PyErr F64) = q at *
  have some_case : ∀ r : Except PyErr Val, (∃ n₀, ∀ n ≥ n₀, (calls O M rangeCoordinates (n + 1)).method N.GPS N.ecef2lla [coords b ecef, .float tolerance] = up r) →
      Gives (fun n => (calls O M rangeCoordinates n).method N.GPS N.ecef2lla [coords b ecef, .float tolerance]) (some r) := by
    rintro r ⟨n₀, hn⟩
    refine ⟨n₀ + 1, fun n hle => ?_⟩
    obtain ⟨m, rfl⟩ : ∃ m, n = m + 1 := ⟨n - 1, by omega⟩
    exact hn m (by omega)
  have loop_case : ∀ p, (∀ n, (calls O M rangeCoordinates (n + 1)).method N.GPS N.ecef2lla [coords b ecef, .float tolerance]
        = loopEnd (M.atan2 (ecef 1) (ecef 0)) (rounds M.toLibm p (ecef 2) tolerance n ecef2lla_init)) →
      Gives (fun n => (calls O M rangeCoordinates n).method N.GPS N.ecef2lla [coords b ecef, .float tolerance])
      ((loopVec (M.atan2 (ecef 1) (ecef 0)) (ecef2lla_loop M.toLibm p (ecef 2) tolerance)).map (·.map point)) := by
    intro p hrun
    have hl := rounds_loop M.toLibm p (ecef 2) tolerance
    cases hloop : ecef2lla_loop M.toLibm p (ecef 2) tolerance with
    | none =>
      simp only [hloop] at hl
      intro n
      rcases n with _ | n
      · rfl
      · refine (hrun n).trans ?_
        rw [hl n]; rfl
    | some r =>
      simp only [hloop] at hl
      obtain ⟨n₀, hn⟩ := hl
      rcases r with e | s
      · refine some_case _ ⟨n₀, fun n hle => ?_⟩
        rw [hrun n, hn n hle]; rfl
      · refine some_case _ ⟨n₀, fun n hle => ?_⟩
        rw [hrun n, hn n hle]; simp only [loopEnd, Except.map, up, point_vec]
  rcases q with e | p
  · simp only [Option.map_some, Except.map]
    exact some_case _ ⟨0, fun n _ => hrun n⟩
  · dsimp only at hrun ⊢
    by_cases hx : (ecef 0).mag = 0
    · by_cases hy : (ecef 1).mag = 0
      · rw [if_pos ⟨hx, hy⟩]
        simp only [decide_eq_true hx, decide_eq_true hy, cond_true] at hrun
        cases h1 : F64.lt (num 0) (ecef 2) with
        | true =>
          rw [if_pos rfl]
          simp only [h1, cond_true] at hrun
          show Gives _ (some (.ok (point ![_, _, _])))
          rw [point_vec]
          exact some_case _ ⟨0, fun n _ => hrun n⟩
        | false =>
          rw [if_neg (by decide)]
          simp only [h1, cond_false] at hrun
          cases h2 : F64.lt (ecef 2) (num 0) with
          | true =>
            rw [if_pos rfl]
            simp only [h2, cond_true] at hrun
            show Gives _ (some (.ok (point ![_, _, _])))
            rw [point_vec]
            exact some_case _ ⟨0, fun n _ => hrun n⟩
          | false =>
            rw [if_neg (by decide)]
            simp only [h2, cond_false] at hrun
            exact some_case _ ⟨0, fun n _ => hrun n⟩
      · rw [if_neg (fun hh => hy hh.2)]
        simp only [decide_eq_true hx, decide_eq_false hy, cond_true, cond_false] at hrun
        refine Eq.mp (congrArg (Gives _) (congrArg (Option.map _) ?_)) (loop_case p hrun)
        generalize ecef2lla_loop M.toLibm p (ecef 2) tolerance = w
        generalize M.atan2 (ecef 1) (ecef 0) = lon
        rcases w with _ | _ | _ <;> rfl
    · rw [if_neg (fun hh => hx hh.1)]
      simp only [decide_eq_false hx, cond_false] at hrun
      refine Eq.mp (congrArg (Gives _) (congrArg (Option.map _) ?_)) (loop_case p hrun)
      generalize ecef2lla_loop M.toLibm p (ecef 2) tolerance = w
      generalize M.atan2 (ecef 1) (ecef 0) = lon
      rcases w with _ | _ | _ <;> rfl

/-- The default tolerance. -/
theorem ecef2lla_default {O : Ops} (h : Ops.ieee = O) (M : Machine) (n : Nat) (b : Bool) (ecef : Vec) :
    (calls O M rangeCoordinates n).method N.GPS N.ecef2lla [coords b ecef]
      = (calls O M rangeCoordinates n).method N.GPS N.ecef2lla [coords b ecef, .float defaultTolerance] := by
  rcases n with _ | n
  · rfl
  · rw [method_eq rfl rfl, method_eq rfl rfl, invoke, invoke]
    have : bindParams O M rangeCoordinates rangeCoordinates.GPS.ecef2lla.params [coords b ecef] [(N.self, .obj N.GPS)]
      = bindParams O M rangeCoordinates rangeCoordinates.GPS.ecef2lla.params [coords b ecef, .float defaultTolerance] [(N.self, .obj N.GPS)] := by
      calc_run h []
    rw [show Fn.params _ = rangeCoordinates.GPS.ecef2lla.params from rfl, this]

theorem default_small : F64.le defaultTolerance (num 90) = true := by decide +kernel

end Dis.Calc
