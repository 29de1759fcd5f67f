import Verif.Proof.Stuck
import Verif.Spec.Calc

/-!
# Literals of the numerical modules
-/

namespace Dis.Calc

open Dbl

set_option linter.unusedSimpArgs false

theorem dec_0 {O : Ops} (h : Ops.ieee = O) : O.decimal 0 0 = some (num 0) := by
  subst h; show decimal 0 0 = some (num 0); decide +kernel

theorem dec_1_9 {O : Ops} (h : Ops.ieee = O) : O.decimal 1 (-9) = some defaultTolerance := by
  subst h; show decimal 1 (-9) = some defaultTolerance; decide +kernel

theorem dec_1_6 {O : Ops} (h : Ops.ieee = O) : O.decimal 1 (-6) = some gimbal := by
  subst h; show decimal 1 (-6) = some gimbal; decide +kernel

theorem dec_1 {O : Ops} (h : Ops.ieee = O) : O.decimal 1 0 = some (num 1) := by
  subst h; show decimal 1 0 = some (num 1); decide +kernel

theorem dec_2 {O : Ops} (h : Ops.ieee = O) : O.decimal 2 0 = some (num 2) := by
  subst h; show decimal 2 0 = some (num 2); decide +kernel

theorem dec_3 {O : Ops} (h : Ops.ieee = O) : O.decimal 3 0 = some (num 3) := by
  subst h; show decimal 3 0 = some (num 3); decide +kernel

theorem dec_4 {O : Ops} (h : Ops.ieee = O) : O.decimal 4 0 = some (num 4) := by
  subst h; show decimal 4 0 = some (num 4); decide +kernel

theorem dec_5_1 {O : Ops} (h : Ops.ieee = O) : O.decimal 5 (-1) = some half := by
  subst h; show decimal 5 (-1) = some half; decide +kernel

theorem dec_5 {O : Ops} (h : Ops.ieee = O) : O.decimal 5 0 = some (num 5) := by
  subst h; show decimal 5 0 = some (num 5); decide +kernel

theorem dec_6 {O : Ops} (h : Ops.ieee = O) : O.decimal 6 0 = some (num 6) := by
  subst h; show decimal 6 0 = some (num 6); decide +kernel

theorem dec_8 {O : Ops} (h : Ops.ieee = O) : O.decimal 8 0 = some (num 8) := by
  subst h; show decimal 8 0 = some (num 8); decide +kernel

theorem dec_9 {O : Ops} (h : Ops.ieee = O) : O.decimal 9 0 = some (num 9) := by
  subst h; show decimal 9 0 = some (num 9); decide +kernel

theorem dec_12 {O : Ops} (h : Ops.ieee = O) : O.decimal 12 0 = some (num 12) := by
  subst h; show decimal 12 0 = some (num 12); decide +kernel

theorem dec_13 {O : Ops} (h : Ops.ieee = O) : O.decimal 13 0 = some (num 13) := by
  subst h; show decimal 13 0 = some (num 13); decide +kernel

theorem dec_15 {O : Ops} (h : Ops.ieee = O) : O.decimal 15 0 = some (num 15) := by
  subst h; show decimal 15 0 = some (num 15); decide +kernel

theorem dec_16 {O : Ops} (h : Ops.ieee = O) : O.decimal 16 0 = some (num 16) := by
  subst h; show decimal 16 0 = some (num 16); decide +kernel

theorem dec_18 {O : Ops} (h : Ops.ieee = O) : O.decimal 18 0 = some (num 18) := by
  subst h; show decimal 18 0 = some (num 18); decide +kernel

theorem dec_21 {O : Ops} (h : Ops.ieee = O) : O.decimal 21 0 = some (num 21) := by
  subst h; show decimal 21 0 = some (num 21); decide +kernel

theorem dec_24 {O : Ops} (h : Ops.ieee = O) : O.decimal 24 0 = some (num 24) := by
  subst h; show decimal 24 0 = some (num 24); decide +kernel

theorem dec_28 {O : Ops} (h : Ops.ieee = O) : O.decimal 28 0 = some (num 28) := by
  subst h; show decimal 28 0 = some (num 28); decide +kernel

theorem dec_32 {O : Ops} (h : Ops.ieee = O) : O.decimal 32 0 = some (num 32) := by
  subst h; show decimal 32 0 = some (num 32); decide +kernel

theorem dec_33 {O : Ops} (h : Ops.ieee = O) : O.decimal 33 0 = some (num 33) := by
  subst h; show decimal 33 0 = some (num 33); decide +kernel

theorem dec_35 {O : Ops} (h : Ops.ieee = O) : O.decimal 35 0 = some (num 35) := by
  subst h; show decimal 35 0 = some (num 35); decide +kernel

theorem dec_42 {O : Ops} (h : Ops.ieee = O) : O.decimal 42 0 = some (num 42) := by
  subst h; show decimal 42 0 = some (num 42); decide +kernel

theorem dec_45 {O : Ops} (h : Ops.ieee = O) : O.decimal 45 0 = some (num 45) := by
  subst h; show decimal 45 0 = some (num 45); decide +kernel

theorem dec_56 {O : Ops} (h : Ops.ieee = O) : O.decimal 56 0 = some (num 56) := by
  subst h; show decimal 56 0 = some (num 56); decide +kernel

theorem dec_58 {O : Ops} (h : Ops.ieee = O) : O.decimal 58 0 = some (num 58) := by
  subst h; show decimal 58 0 = some (num 58); decide +kernel

theorem dec_61 {O : Ops} (h : Ops.ieee = O) : O.decimal 61 0 = some (num 61) := by
  subst h; show decimal 61 0 = some (num 61); decide +kernel

theorem dec_64 {O : Ops} (h : Ops.ieee = O) : O.decimal 64 0 = some (num 64) := by
  subst h; show decimal 64 0 = some (num 64); decide +kernel

theorem dec_72 {O : Ops} (h : Ops.ieee = O) : O.decimal 72 0 = some (num 72) := by
  subst h; show decimal 72 0 = some (num 72); decide +kernel

theorem dec_84 {O : Ops} (h : Ops.ieee = O) : O.decimal 84 0 = some (num 84) := by
  subst h; show decimal 84 0 = some (num 84); decide +kernel

theorem dec_120 {O : Ops} (h : Ops.ieee = O) : O.decimal 120 0 = some (num 120) := by
  subst h; show decimal 120 0 = some (num 120); decide +kernel

theorem dec_148 {O : Ops} (h : Ops.ieee = O) : O.decimal 148 0 = some (num 148) := by
  subst h; show decimal 148 0 = some (num 148); decide +kernel

theorem dec_180 {O : Ops} (h : Ops.ieee = O) : O.decimal 180 0 = some (num 180) := by
  subst h; show decimal 180 0 = some (num 180); decide +kernel

theorem dec_256 {O : Ops} (h : Ops.ieee = O) : O.decimal 256 0 = some (num 256) := by
  subst h; show decimal 256 0 = some (num 256); decide +kernel

theorem dec_330 {O : Ops} (h : Ops.ieee = O) : O.decimal 330 0 = some (num 330) := by
  subst h; show decimal 330 0 = some (num 330); decide +kernel

theorem dec_600 {O : Ops} (h : Ops.ieee = O) : O.decimal 600 0 = some (num 600) := by
  subst h; show decimal 600 0 = some (num 600); decide +kernel

theorem dec_720 {O : Ops} (h : Ops.ieee = O) : O.decimal 720 0 = some (num 720) := by
  subst h; show decimal 720 0 = some (num 720); decide +kernel

theorem dec_1024 {O : Ops} (h : Ops.ieee = O) : O.decimal 1024 0 = some (num 1024) := by
  subst h; show decimal 1024 0 = some (num 1024); decide +kernel

theorem dec_3072 {O : Ops} (h : Ops.ieee = O) : O.decimal 3072 0 = some (num 3072) := by
  subst h; show decimal 3072 0 = some (num 3072); decide +kernel

theorem dec_6900_2 {O : Ops} (h : Ops.ieee = O) : O.decimal 6900 (-2) = some (num 69) := by
  subst h; show decimal 6900 (-2) = some (num 69); decide +kernel

theorem dec_9000_2 {O : Ops} (h : Ops.ieee = O) : O.decimal 9000 (-2) = some (num 90) := by
  subst h; show decimal 9000 (-2) = some (num 90); decide +kernel

theorem dec_9996_4 {O : Ops} (h : Ops.ieee = O) : O.decimal 9996 (-4) = some k0 := by
  subst h; show decimal 9996 (-4) = some k0; decide +kernel

theorem dec_500000 {O : Ops} (h : Ops.ieee = O) : O.decimal 500000 0 = some (num 500000) := by
  subst h; show decimal 500000 0 = some (num 500000); decide +kernel

theorem dec_3986005_p8 {O : Ops} (h : Ops.ieee = O) : O.decimal 3986005 8 = some (BitVec.ofNat 64 0x42F6A866935B5000) := by
  subst h; show decimal 3986005 8 = some (BitVec.ofNat 64 0x42F6A866935B5000); decide +kernel

theorem dec_63781370_1 {O : Ops} (h : Ops.ieee = O) : O.decimal 63781370 (-1) = some WGS84.a := by
  subst h; show decimal 63781370 (-1) = some WGS84.a; decide +kernel

theorem dec_299792458 {O : Ops} (h : Ops.ieee = O) : O.decimal 299792458 0 = some (num 299792458) := by
  subst h; show decimal 299792458 0 = some (num 299792458); decide +kernel

theorem dec_1931851353_12 {O : Ops} (h : Ops.ieee = O) : O.decimal 1931851353 (-12) = some (BitVec.ofNat 64 0x3F5FA6C5987087F4) := by
  subst h; show decimal 1931851353 (-12) = some (BitVec.ofNat 64 0x3F5FA6C5987087F4); decide +kernel

theorem dec_4442807633_19 {O : Ops} (h : Ops.ieee = O) : O.decimal 4442807633 (-19) = some (BitVec.ofNat 64 0x3DFE87DEAE177A99) := by
  subst h; show decimal 4442807633 (-19) = some (BitVec.ofNat 64 0x3DFE87DEAE177A99); decide +kernel

theorem dec_63567523142_4 {O : Ops} (h : Ops.ieee = O) : O.decimal 63567523142 (-4) = some WGS84.b := by
  subst h; show decimal 63567523142 (-4) = some WGS84.b; decide +kernel

theorem dec_66943800229_13 {O : Ops} (h : Ops.ieee = O) : O.decimal 66943800229 (-13) = some (BitVec.ofNat 64 0x3F7B6B90F43EE0EF) := by
  subst h; show decimal 66943800229 (-13) = some (BitVec.ofNat 64 0x3F7B6B90F43EE0EF); decide +kernel

theorem dec_72921151467_15 {O : Ops} (h : Ops.ieee = O) : O.decimal 72921151467 (-15) = some (BitVec.ofNat 64 0x3F131DA7D7CB8D5B) := by
  subst h; show decimal 72921151467 (-15) = some (BitVec.ofNat 64 0x3F131DA7D7CB8D5B); decide +kernel

theorem dec_97803267715_10 {O : Ops} (h : Ops.ieee = O) : O.decimal 97803267715 (-10) = some (BitVec.ofNat 64 0x40238F86FD979250) := by
  subst h; show decimal 97803267715 (-10) = some (BitVec.ofNat 64 0x40238F86FD979250); decide +kernel

theorem int_0 {O : Ops} (h : Ops.ieee = O) : O.fromInt (.ofNat 0) = .ok (num 0) := by subst h; decide +kernel

theorem int_1 {O : Ops} (h : Ops.ieee = O) : O.fromInt (.ofNat 1) = .ok (num 1) := by subst h; decide +kernel

theorem int_2 {O : Ops} (h : Ops.ieee = O) : O.fromInt (.ofNat 2) = .ok (num 2) := by subst h; decide +kernel

theorem int_3 {O : Ops} (h : Ops.ieee = O) : O.fromInt (.ofNat 3) = .ok (num 3) := by subst h; decide +kernel

theorem int_4 {O : Ops} (h : Ops.ieee = O) : O.fromInt (.ofNat 4) = .ok (num 4) := by subst h; decide +kernel

theorem int_5 {O : Ops} (h : Ops.ieee = O) : O.fromInt (.ofNat 5) = .ok (num 5) := by subst h; decide +kernel

theorem int_6 {O : Ops} (h : Ops.ieee = O) : O.fromInt (.ofNat 6) = .ok (num 6) := by subst h; decide +kernel

theorem int_8 {O : Ops} (h : Ops.ieee = O) : O.fromInt (.ofNat 8) = .ok (num 8) := by subst h; decide +kernel

theorem int_16 {O : Ops} (h : Ops.ieee = O) : O.fromInt (.ofNat 16) = .ok (num 16) := by subst h; decide +kernel

theorem int_24 {O : Ops} (h : Ops.ieee = O) : O.fromInt (.ofNat 24) = .ok (num 24) := by subst h; decide +kernel

theorem int_31 {O : Ops} (h : Ops.ieee = O) : O.fromInt (.ofNat 31) = .ok (num 31) := by subst h; decide +kernel

theorem int_32 {O : Ops} (h : Ops.ieee = O) : O.fromInt (.ofNat 32) = .ok (num 32) := by subst h; decide +kernel

theorem int_33 {O : Ops} (h : Ops.ieee = O) : O.fromInt (.ofNat 33) = .ok (num 33) := by subst h; decide +kernel

theorem int_35 {O : Ops} (h : Ops.ieee = O) : O.fromInt (.ofNat 35) = .ok (num 35) := by subst h; decide +kernel

theorem int_37 {O : Ops} (h : Ops.ieee = O) : O.fromInt (.ofNat 37) = .ok (num 37) := by subst h; decide +kernel

theorem int_40 {O : Ops} (h : Ops.ieee = O) : O.fromInt (.ofNat 40) = .ok (num 40) := by subst h; decide +kernel

theorem int_48 {O : Ops} (h : Ops.ieee = O) : O.fromInt (.ofNat 48) = .ok (num 48) := by subst h; decide +kernel

theorem int_56 {O : Ops} (h : Ops.ieee = O) : O.fromInt (.ofNat 56) = .ok (num 56) := by subst h; decide +kernel

theorem int_64 {O : Ops} (h : Ops.ieee = O) : O.fromInt (.ofNat 64) = .ok (num 64) := by subst h; decide +kernel

theorem int_72 {O : Ops} (h : Ops.ieee = O) : O.fromInt (.ofNat 72) = .ok (num 72) := by subst h; decide +kernel

theorem int_80 {O : Ops} (h : Ops.ieee = O) : O.fromInt (.ofNat 80) = .ok (num 80) := by subst h; decide +kernel

theorem int_90 {O : Ops} (h : Ops.ieee = O) : O.fromInt (.ofNat 90) = .ok (num 90) := by subst h; decide +kernel

theorem int_180 {O : Ops} (h : Ops.ieee = O) : O.fromInt (.ofNat 180) = .ok (num 180) := by subst h; decide +kernel

theorem int_256 {O : Ops} (h : Ops.ieee = O) : O.fromInt (.ofNat 256) = .ok (num 256) := by subst h; decide +kernel

theorem int_m8 {O : Ops} (h : Ops.ieee = O) : O.fromInt (.negSucc 7) = .ok (O.neg (num 8)) := by subst h; decide +kernel

theorem int_m16 {O : Ops} (h : Ops.ieee = O) : O.fromInt (.negSucc 15) = .ok (O.neg (num 16)) := by subst h; decide +kernel

theorem int_m24 {O : Ops} (h : Ops.ieee = O) : O.fromInt (.negSucc 23) = .ok (O.neg (num 24)) := by subst h; decide +kernel

theorem int_m32 {O : Ops} (h : Ops.ieee = O) : O.fromInt (.negSucc 31) = .ok (O.neg (num 32)) := by subst h; decide +kernel

theorem int_m40 {O : Ops} (h : Ops.ieee = O) : O.fromInt (.negSucc 39) = .ok (O.neg (num 40)) := by subst h; decide +kernel

theorem int_m48 {O : Ops} (h : Ops.ieee = O) : O.fromInt (.negSucc 47) = .ok (O.neg (num 48)) := by subst h; decide +kernel

theorem int_m56 {O : Ops} (h : Ops.ieee = O) : O.fromInt (.negSucc 55) = .ok (O.neg (num 56)) := by subst h; decide +kernel

theorem int_m64 {O : Ops} (h : Ops.ieee = O) : O.fromInt (.negSucc 63) = .ok (O.neg (num 64)) := by subst h; decide +kernel

theorem int_m72 {O : Ops} (h : Ops.ieee = O) : O.fromInt (.negSucc 71) = .ok (O.neg (num 72)) := by subst h; decide +kernel

theorem int_m80 {O : Ops} (h : Ops.ieee = O) : O.fromInt (.negSucc 79) = .ok (O.neg (num 80)) := by subst h; decide +kernel

theorem pyDiv_ok {x y : F64} (h : y.mag ≠ 0) : F64.pyDiv x y = .ok (F64.div x y) := by
  unfold F64.pyDiv; rw [if_neg h]

theorem divides {O : Ops} (h : Ops.ieee = O) {x y : F64} (hy : y.mag ≠ 0) : O.pyDiv x y = .ok (O.div x y) := by
  subst h; show F64.pyDiv x y = .ok (F64.div x y); exact pyDiv_ok hy

theorem div_2 {O : Ops} (h : Ops.ieee = O) (x : F64) : O.pyDiv x (num 2) = .ok (O.div x (num 2)) := by
  exact divides h (by decide +kernel)

theorem div_4 {O : Ops} (h : Ops.ieee = O) (x : F64) : O.pyDiv x (num 4) = .ok (O.div x (num 4)) := by
  exact divides h (by decide +kernel)

theorem div_6 {O : Ops} (h : Ops.ieee = O) (x : F64) : O.pyDiv x (num 6) = .ok (O.div x (num 6)) := by
  exact divides h (by decide +kernel)

theorem div_8 {O : Ops} (h : Ops.ieee = O) (x : F64) : O.pyDiv x (num 8) = .ok (O.div x (num 8)) := by
  exact divides h (by decide +kernel)

theorem div_24 {O : Ops} (h : Ops.ieee = O) (x : F64) : O.pyDiv x (num 24) = .ok (O.div x (num 24)) := by
  exact divides h (by decide +kernel)

theorem div_32 {O : Ops} (h : Ops.ieee = O) (x : F64) : O.pyDiv x (num 32) = .ok (O.div x (num 32)) := by
  exact divides h (by decide +kernel)

theorem div_64 {O : Ops} (h : Ops.ieee = O) (x : F64) : O.pyDiv x (num 64) = .ok (O.div x (num 64)) := by
  exact divides h (by decide +kernel)

theorem div_120 {O : Ops} (h : Ops.ieee = O) (x : F64) : O.pyDiv x (num 120) = .ok (O.div x (num 120)) := by
  exact divides h (by decide +kernel)

theorem div_180 {O : Ops} (h : Ops.ieee = O) (x : F64) : O.pyDiv x (num 180) = .ok (O.div x (num 180)) := by
  exact divides h (by decide +kernel)

theorem div_256 {O : Ops} (h : Ops.ieee = O) (x : F64) : O.pyDiv x (num 256) = .ok (O.div x (num 256)) := by
  exact divides h (by decide +kernel)

theorem div_720 {O : Ops} (h : Ops.ieee = O) (x : F64) : O.pyDiv x (num 720) = .ok (O.div x (num 720)) := by
  exact divides h (by decide +kernel)

theorem div_1024 {O : Ops} (h : Ops.ieee = O) (x : F64) : O.pyDiv x (num 1024) = .ok (O.div x (num 1024)) := by
  exact divides h (by decide +kernel)

theorem div_3072 {O : Ops} (h : Ops.ieee = O) (x : F64) : O.pyDiv x (num 3072) = .ok (O.div x (num 3072)) := by
  exact divides h (by decide +kernel)

theorem div_pi {O : Ops} (h : Ops.ieee = O) (x : F64) : O.pyDiv x pi = .ok (O.div x pi) := by
  exact divides h (by decide +kernel)

theorem div_a {O : Ops} (h : Ops.ieee = O) (x : F64) : O.pyDiv x WGS84.a = .ok (O.div x WGS84.a) := by
  exact divides h (by decide +kernel)

theorem ops_add {O : Ops} (h : Ops.ieee = O) : F64.add = O.add := by subst h; rfl

theorem ops_sub {O : Ops} (h : Ops.ieee = O) : F64.sub = O.sub := by subst h; rfl

theorem ops_mul {O : Ops} (h : Ops.ieee = O) : F64.mul = O.mul := by subst h; rfl

theorem ops_div {O : Ops} (h : Ops.ieee = O) : F64.div = O.div := by subst h; rfl

theorem ops_neg {O : Ops} (h : Ops.ieee = O) : F64.neg = O.neg := by subst h; rfl

theorem ops_abs {O : Ops} (h : Ops.ieee = O) : F64.abs = O.abs := by subst h; rfl

theorem ops_round2 {O : Ops} (h : Ops.ieee = O) : Dbl.round2 = O.round2 := by subst h; rfl

theorem ops_sqrt {O : Ops} (h : Ops.ieee = O) : F64.sqrt = O.sqrt := by subst h; rfl

theorem ops_pyDiv {O : Ops} (h : Ops.ieee = O) : F64.pyDiv = O.pyDiv := by subst h; rfl

theorem ops_lt {O : Ops} (h : Ops.ieee = O) : F64.lt = O.lt := by subst h; rfl

theorem ops_le {O : Ops} (h : Ops.ieee = O) : F64.le = O.le := by subst h; rfl

theorem ops_trig {O : Ops} (h : Ops.ieee = O) : Dbl.trig = O.trig := by subst h; rfl

theorem ops_fromInt {O : Ops} (h : Ops.ieee = O) : Dbl.fromInt = O.fromInt := by subst h; rfl

theorem ops_truncate {O : Ops} (h : Ops.ieee = O) : Dbl.truncate = O.truncate := by subst h; rfl

/-- `lo <= x < hi`. -/
@[irreducible] def inside (O : Ops) (lo x hi : F64) : Bool := O.le lo x && O.lt x hi

theorem ops_within {O : Ops} (h : Ops.ieee = O) : within = inside O := by subst h; unfold inside; rfl

theorem ite_cond {α : Type} (b : Bool) (x y : α) : (if b = true then x else y) = cond b x y := by cases b <;> rfl

theorem vadd_fn (u v : Vec) : vadd u v = fun i => F64.add (u i) (v i) := rfl

theorem vsub_fn (u v : Vec) : vsub u v = fun i => F64.sub (u i) (v i) := rfl

theorem vmul_fn (u : Vec) (x : F64) : vmul u x = fun i => F64.mul (u i) x := rfl

theorem vhalf_fn (u : Vec) : vhalf u = fun i => F64.mul half (u i) := rfl

/-- The operations of the model as unknown ones. -/
macro "calc_ops" h:ident "[" ts:Lean.Parser.Tactic.simpLemma,* "]" l:(Lean.Parser.Tactic.location)? : tactic => `(tactic| simp only
  [$ts,*, ite_cond, vadd_fn, vsub_fn, vmul_fn, vhalf_fn, ops_add $h, ops_sub $h, ops_mul $h, ops_div $h, ops_neg $h, ops_abs $h, ops_round2 $h, ops_sqrt $h, ops_pyDiv $h,
   ops_lt $h, ops_le $h, ops_trig $h, ops_fromInt $h, ops_truncate $h, ops_within $h] $(l)?)

theorem compare_int_le {O : Ops} {a : Int} {A y : F64} (ha : O.fromInt a = .ok A) (na : decide (a.natAbs ≤ 2 ^ 53) = true) :
    Calc.compare O .le (.int a) (.float y) = .ok (O.le A y) := by
  simp only [Calc.compare, exactly, na, ha, up, compareFloat, bind, Except.bind]

theorem compare_int_lt {O : Ops} {a : Int} {A y : F64} (ha : O.fromInt a = .ok A) (na : decide (a.natAbs ≤ 2 ^ 53) = true) :
    Calc.compare O .lt (.float y) (.int a) = .ok (O.lt y A) := by
  simp only [Calc.compare, exactly, na, ha, up, compareFloat, bind, Except.bind]

theorem chain_int {O : Ops} {M : Machine} {X : Module} {C : Calls} {env : Env} {a b : Int} {x : Ident} {e : Expr} {A B y : F64}
    (hx : global X env x = .ok (.float y)) (hb : eval O M X C e env = .ok (.int b))
    (ha : O.fromInt a = .ok A) (hB : O.fromInt b = .ok B)
    (na : decide (a.natAbs ≤ 2 ^ 53) = true) (nb : decide (b.natAbs ≤ 2 ^ 53) = true) :
    evalChain O M X C (.int a) [(.le, .name x), (.lt, e)] env = .ok (inside O A y B) := by
  unfold inside
  rw [evalChain, eval, hx]
  simp only [bind, Except.bind]
  rw [compare_int_le ha na]
  cases O.le A y
  · rfl
  · simp only []
    rw [evalChain, hb]
    simp only [bind, Except.bind]
    rw [compare_int_lt hB nb]
    cases O.lt y B
    · rfl
    · simp only []
      rw [evalChain]; rfl

theorem chain_float {O : Ops} {M : Machine} {X : Module} {C : Calls} {env : Env} {m : Nat} {k : Int} {x : Ident} {A B y : F64}
    (hx : global X env x = .ok (.float y)) (hB : O.decimal m k = some B) :
    evalChain O M X C (.float A) [(.le, .name x), (.lt, .dec m k)] env = .ok (inside O A y B) := by
  unfold inside
  rw [evalChain, eval, hx]
  simp only [bind, Except.bind]
  rw [show Calc.compare O .le (.float A) (.float y) = .ok (O.le A y) from rfl]
  cases O.le A y
  · rfl
  · simp only []
    rw [evalChain, eval, hB]
    simp only [bind, Except.bind]
    rw [show Calc.compare O .lt (.float y) (.float B) = .ok (O.lt y B) from rfl]
    cases O.lt y B
    · rfl
    · simp only []
      rw [evalChain]; rfl

theorem method_eq {O : Ops} {M : Machine} {X : Module} {n : Nat} {c m : Ident} {k : Class} {f : Fn} {args : List Val}
    (hk : look c X.classes = some k) (hf : look m k.methods = some f) :
    (calls O M X (n + 1)).method c m args = invoke O M X (calls O M X n) n f args [(N.self, .obj c)] := by
  simp only [calls, hk, hf]

theorem fn_eq {O : Ops} {M : Machine} {X : Module} {n : Nat} {m : Ident} {f : Fn} {args : List Val}
    (hf : look m X.functions = some f) :
    (calls O M X (n + 1)).fn m args = invoke O M X (calls O M X n) n f args [] := by
  simp only [calls, hf]

theorem attr_eq (O : Ops) (M : Machine) (X : Module) (n : Nat) : (calls O M X n).attr = classAttr O M X := by
  cases n <;> rfl

theorem execs_append (O : Ops) (M : Machine) (X : Module) (C : Calls) (n : Nat) (ts : List Stmt) :
    ∀ (ss : List Stmt) (env : Env), execs O M X C n (ss ++ ts) env =
      (match execs O M X C n ss env with
      | .error e => .error e
      | .ok (env, some v) => .ok (env, some v)
      | .ok (env, .none) => execs O M X C n ts env)
  | [], env => by rw [execs]; rfl
  | s :: ss, env => by
    rw [List.cons_append, execs, execs]
    rcases exec O M X C n s env with e | ⟨env, _ | v⟩
    · rfl
    · exact execs_append O M X C n ts ss env
    · rfl

/-- What a call returns. -/
def finish : Res (Env × Option Val) → Res Val
  | .error e => .error e
  | .ok (_, some v) => .ok v
  | .ok (_, .none) => .ok .none

/-- The second part of a body, if the first does not return. -/
def andThen (r : Res (Env × Option Val)) (K : Env → Res Val) : Res Val :=
  match r with
  | .error e => .error e
  | .ok (_, some v) => .ok v
  | .ok (env, .none) => K env

/-- A call, in two parts. -/
theorem invoke_at (k : Nat) {O : Ops} {M : Machine} {X : Module} {C : Calls} {n : Nat} {f : Fn} {args : List Val} {env : Env} :
    invoke O M X C n f args env = ((bindParams O M X f.params args env).bind fun env =>
      andThen (execs O M X C n (f.body.take k) env) fun env => finish (execs O M X C n (f.body.drop k) env)) := by
  rw [invoke]
  rcases bindParams O M X f.params args env with e | env
  · rfl
  · show (execs O M X C n f.body env >>= _) = andThen (execs O M X C n (f.body.take k) env) _
    conv_lhs => rw [← List.take_append_drop k f.body, execs_append]
    rcases execs O M X C n (f.body.take k) env with e | ⟨env, _ | v⟩
    · rfl
    · show (execs O M X C n (f.body.drop k) env >>= _) = finish (execs O M X C n (f.body.drop k) env)
      rcases execs O M X C n (f.body.drop k) env with e | ⟨env, _ | v⟩ <;> rfl
    · rfl

/-- Evaluates with the literals of the modules. -/
macro "calc_run" h:ident "[" ts:term,* "]" : tactic => `(tactic| calc_eval
  [dec_0 $h, dec_1_9 $h, dec_1_6 $h, dec_1 $h, dec_2 $h, dec_3 $h, dec_4 $h, dec_5_1 $h, dec_5 $h, dec_6 $h,
   dec_8 $h, dec_9 $h, dec_12 $h, dec_13 $h, dec_15 $h, dec_16 $h, dec_18 $h, dec_21 $h, dec_24 $h, dec_28 $h,
   dec_32 $h, dec_33 $h, dec_35 $h, dec_42 $h, dec_45 $h, dec_56 $h, dec_58 $h, dec_61 $h, dec_64 $h, dec_72 $h,
   dec_84 $h, dec_120 $h, dec_148 $h, dec_180 $h, dec_256 $h, dec_330 $h, dec_600 $h, dec_720 $h, dec_1024 $h, dec_3072 $h,
   dec_6900_2 $h, dec_9000_2 $h, dec_9996_4 $h, dec_500000 $h, dec_3986005_p8 $h, dec_63781370_1 $h, dec_299792458 $h, dec_1931851353_12 $h, dec_4442807633_19 $h, dec_63567523142_4 $h,
   dec_66943800229_13 $h, dec_72921151467_15 $h, dec_97803267715_10 $h, int_0 $h, int_1 $h, int_2 $h, int_3 $h, int_4 $h, int_5 $h, int_6 $h,
   int_8 $h, int_16 $h, int_24 $h, int_31 $h, int_32 $h, int_33 $h, int_35 $h, int_37 $h, int_40 $h, int_48 $h,
   int_56 $h, int_64 $h, int_72 $h, int_80 $h, int_90 $h, int_180 $h, int_256 $h, int_m8 $h, int_m16 $h, int_m24 $h,
   int_m32 $h, int_m40 $h, int_m48 $h, int_m56 $h, int_m64 $h, int_m72 $h, int_m80 $h, div_2 $h, div_4 $h, div_6 $h,
   div_8 $h, div_24 $h, div_32 $h, div_64 $h, div_120 $h, div_180 $h, div_256 $h, div_720 $h, div_1024 $h, div_3072 $h,
   div_pi $h, div_a $h,
   $ts,*])

end Dis.Calc
