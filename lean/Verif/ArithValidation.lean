import Verif.Py.Arith

/-!
# Tests of the arithmetic

The floating-point operations of the model against those of the machine that builds it, on doubles of all
sizes, special values among them. These are tests; `Verif/Props/Rounding.lean` has the theorems.
-/

namespace Dis.ArithValidation

/-- Pseudo-random 64-bit numbers. -/
def lcg (x : UInt64) : UInt64 := x * 6364136223846793005 + 1442695040888963407

/-- A double whose exponent is near that of 1, or anywhere, or that is special. -/
def pick (a : UInt64) : UInt64 :=
  let special : Array UInt64 := #[0, 0x8000000000000000, 0x7ff0000000000000, 0xfff0000000000000,
    0x7ff8000000000000, 1, 0x7fefffffffffffff, 0x0010000000000000]
  let sf : UInt64 := 0x800fffffffffffff
  let one : UInt64 := 0x3ff0000000000000
  let few : UInt64 := 0x00f000000000000f
  match (a >>> 60).toNat % 8 with
  | 0 => special[(a >>> 40).toNat % 8]!
  | 1 => (a <<< 3) &&& sf
  | 2 => a <<< 3 ^^^ (a >>> 7)
  | 3 => ((a <<< 8) &&& (0x8000000000000000 : UInt64)) ||| one ||| ((a >>> 3) &&& few)
  | _ => (((a <<< 3) &&& sf) ||| (0x3fc0000000000000 : UInt64)) + (((a >>> 50) &&& (0x3f : UInt64)) <<< 52)

def toF (x : UInt64) : F64 := BitVec.ofNat 64 x.toNat

def check (n : Nat) (m : F64 → F64 → F64) (f : Float → Float → Float) : Bool := Id.run do
  let mut s : UInt64 := 42
  for _ in [0:n] do
    let s1 := lcg s
    let s2 := lcg s1
    let x := pick (s1 ^^^ (s1 >>> 33))
    let y := pick (s2 ^^^ (s2 >>> 33))
    s := s2
    let r := f (Float.ofBits x) (Float.ofBits y)
    let q := m (toF x) (toF y)
    if r.isNaN then
      if q ≠ F64.nan then return false
    else if q.toNat ≠ r.toBits.toNat then return false
  return true

#guard check 10000 F64.add (· + ·)
#guard check 10000 F64.sub (· - ·)
#guard check 10000 F64.mul (· * ·)
#guard check 10000 F64.div (· / ·)
#guard !check 10000 F64.add (· - ·)
#guard check 10000 (fun x y => if F64.absLt x 0x3EB0C6F7A0B5ED8D then y else 0)
  (fun x y => if x.abs < 1e-6 then y else 0)

end Dis.ArithValidation
