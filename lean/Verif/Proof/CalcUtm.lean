import Verif.Proof.Calc

/-!
# What the tree of `lla2utm` does
-/

namespace Dis.Calc
open Dbl
set_option exponentiation.threshold 3000
attribute [local irreducible] num classAttr evalChain utmLetterDesignator String.toList Char.toString

/-- `lla2utm` after the zone number. -/
def afterZone (L : CMath) (lla : Vec) (zoneNumber : Int) : Except PyErr Utm := do
  let lat := lla 0
  let lon := lla 1
  let alt := lla 2
  let zone := (zoneNumber, utmLetterDesignator lat)
  let lonOrigin ← fromInt ((zoneNumber - 1) * 6 - 180 + 3)
  let latRad := deg2rad lat
  let lonRad := deg2rad lon
  let lonOriginRad := deg2rad lonOrigin
  let eSquared ← L.square WGS84.e
  let ePrimeSquared ← F64.pyDiv eSquared (F64.sub (Dbl.num 1) eSquared)
  let s ← trig L.sin latRad
  let s2 ← L.square s
  let r ← F64.sqrt (F64.sub (Dbl.num 1) (F64.mul eSquared s2))
  let N ← F64.pyDiv WGS84.a r
  let t ← trig L.tan latRad
  let T ← L.square t
  let c ← trig L.cos latRad
  let c2 ← L.square c
  let C := F64.mul ePrimeSquared c2
  let A := F64.mul (F64.sub lonRad lonOriginRad) c
  let M ← meridian L eSquared latRad
  let x ← easting L N T C A ePrimeSquared
  let y ← northing L M N t T C A ePrimeSquared
  let k ← scaleFactor L T C A ePrimeSquared
  return { utm := ![x, y, alt], zone := zone, k := k }

theorem lla2utm_split (L : CMath) (lla : Vec) :
    lla2utm L lla = (do afterZone L lla (← zoneNumber (lla 0) (lla 1))) := rfl

theorem toList_char (c : Char) : c.toString.toList = [c] := by simp

theorem format_code : decide ("%d%c" = "%d%c") = true := rfl

set_option maxRecDepth 20000 in
set_option maxHeartbeats 1000000 in
theorem utm_rest {O : Ops} (h : Ops.ieee = O) (M : Machine) (C : Calls) (n : Nat) (lla : Vec) (z : Int) (env : Env)
    (hm : C.method N.GPS N.utmLetterDesignator [.float (lla 0)] = .ok (.str (utmLetterDesignator (lla 0)).toString))
    (hd : ∀ x, C.fn N.deg2rad [.float x] = .ok (.float (deg2rad x)))
    (hi : ∀ z, C.fn N.deg2rad [.int z] = up (do let x ← fromInt z; return .float (deg2rad x)))
    (ha : C.attr N.WGS84 N.a = .ok (.float WGS84.a)) (he : C.attr N.WGS84 N.e = .ok (.float WGS84.e))
    (hw : C.attr N.GPS N.wgs84 = .ok (.obj N.WGS84))
    (h1 : look N.self env = some (.obj N.GPS)) (h2 : look N.lat env = some (.float (lla 0)))
    (h3 : look N.lon env = some (.float (lla 1))) (h4 : look N.alt env = some (.float (lla 2)))
    (h5 : look N.zoneNumber env = some (.int z))
    (h6 : look N.sin env = none) (h7 : look N.cos env = none) (h8 : look N.tan env = none) (h9 : look N.sqrt env = none) :
    finish (execs O M rangeCoordinates C n (rangeCoordinates.GPS.lla2utm.body.drop 6) env)
      = up ((afterZone M.toCMath lla z).map utmValue) := by
  calc_ops h [afterZone, deg2rad, meridian, easting, northing, scaleFactor] at hd hi ⊢
  calc_run h [toList_char, format_code, hd, hi]

theorem utm_pre {O : Ops} (h : Ops.ieee = O) (M : Machine) (C : Calls) (n : Nat) (lla : Vec) (K : Env → Res Val) (R : Int → Res Val)
    (hK : ∀ (z : Int) (env : Env), look N.self env = some (.obj N.GPS) → look N.lat env = some (.float (lla 0)) →
      look N.lon env = some (.float (lla 1)) → look N.alt env = some (.float (lla 2)) → look N.zoneNumber env = some (.int z) →
      look N.sin env = none → look N.cos env = none → look N.tan env = none → look N.sqrt env = none → K env = R z) :
    ((bindParams O M rangeCoordinates rangeCoordinates.GPS.lla2utm.params [point lla] [(N.self, .obj N.GPS)]).bind fun env =>
      andThen (execs O M rangeCoordinates C n (rangeCoordinates.GPS.lla2utm.body.take 6) env) K) = (do R (← up (zoneNumber (lla 0) (lla 1)))) := by
  rw [zoneNumber_cond]
  calc_ops h [id]
  calc_run h [@chain_float, hK]

theorem up_bind {α β γ : Type} (r : Except PyErr α) (A : α → Except PyErr β) (f : β → γ) :
    (do up ((A (← up r)).map f)) = up ((do A (← r)).map f) := by
  cases r <;> rfl

theorem lla2utm_runs {O : Ops} (h : Ops.ieee = O) (M : Machine) (n : Nat) (lla : Vec) :
    (calls O M rangeCoordinates (n + 2)).method N.GPS N.lla2utm [point lla]
      = up ((lla2utm M.toCMath lla).map utmValue) := by
  rw [method_eq rfl rfl, invoke_at 6, lla2utm_split]
  refine (utm_pre h M _ (n + 1) lla _ _ fun z env => utm_rest h M (calls O M rangeCoordinates (n + 1)) (n + 1) lla z env
    (utmLetterDesignator_runs h M n (lla 0)) (deg2rad_runs h M n) (deg2rad_int_runs h M n) ?_ ?_ ?_).trans (up_bind _ _ _)
  · rw [attr_eq]; exact attr_a M h
  · rw [attr_eq]; exact attr_e M h
  · rw [attr_eq]; exact attr_wgs84 M h

end Dis.Calc
