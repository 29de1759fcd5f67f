import Verif.Spec.Layout
import Verif.Proof.Wire
import Verif.Proof.Bitfield

/-! # Proof machinery for wire layouts -/

namespace Dis

/-- The writer does what writing the slots does. -/
def Lay (w : W Unit) (sl : List Slot) : Prop := w = Slot.stream sl

theorem Slot.stream_append (a b : List Slot) :
    Slot.stream (a ++ b) = (Slot.stream a >>= fun _ => Slot.stream b) := by
  induction a with
  | nil => rfl
  | cons s r ih =>
    simp only [List.cons_append, Slot.stream]
    cases s.encode with
    | error e => rfl
    | ok x =>
      rw [ih]
      simp only [W.bind_def, W.bind]
      cases (Slot.stream r).res with
      | error e => rfl
      | ok u => simp

theorem Lay.bind {w k : W Unit} {a b : List Slot} (h1 : Lay w a) (h2 : Lay k b) :
    Lay (w >>= fun _ => k) (a ++ b) := by
  unfold Lay at *
  rw [Slot.stream_append, ← h1, ← h2]

theorem Lay.last {w : W Unit} {a : List Slot} (h : Lay w a) : Lay w (a ++ []) := by
  rw [List.append_nil]; exact h

theorem Lay.nil : Lay (pure ()) [] := rfl

theorem Lay.throw (e) : Lay (W.throw e) [.fail e] := rfl

theorem Lay.raw (b : Bytes) : Lay (write_bytes b) [.raw b] := by
  simp [Lay, Slot.stream, Slot.encode, write_bytes, W.emit]

theorem Lay.forEach {α} {l : List α} {body : α → W Unit} {f : α → List Slot}
    (h : ∀ x, Lay (body x) (f x)) : Lay (W.forEach l body) (l.flatMap f) := by
  induction l with
  | nil => rfl
  | cons x xs ih => simpa [W.forEach] using Lay.bind (h x) ih

theorem Lay.map {α} {l : List α} {body : α → W Unit} {f : α → Slot}
    (h : ∀ x, Lay (body x) [f x]) : Lay (W.forEach l body) (l.map f) := by
  have := Lay.forEach (l := l) h
  rwa [← List.map_eq_flatMap] at this

theorem Lay.forRange {body : Nat → W Unit} {f : Nat → Slot}
    (h : ∀ i, Lay (body i) [f i]) (i n : Nat) :
    Lay (W.forRange i n body) ((List.range n).map fun j => f (i + j)) := by
  induction n generalizing i with
  | zero => rfl
  | succ n ih =>
    have := Lay.bind (h i) (ih (i + 1))
    simp only [List.range_succ_eq_map, List.map_cons, List.map_map]
    simpa [W.forRange, Function.comp_def, Nat.add_assoc, Nat.add_comm 1] using this

theorem Lay.range {body : Nat → W Unit} {f : Nat → Slot}
    (h : ∀ i, Lay (body i) [f i]) (n : Nat) :
    Lay (W.forRange 0 n body) ((List.range n).map f) := by
  simpa using Lay.forRange h 0 n

theorem Lay.attr {α} {w : α → W Unit} {k : α → Slot} (h : ∀ v, Lay (w v) [k v]) (o : Option α) :
    Lay (W.using (attr o) w) [Slot.orFail .attributeError k o] := by
  cases o with
  | none => rfl
  | some v => exact h v

theorem Lay.attrAll {α} {w : α → W Unit} {k : α → List Slot} (h : ∀ v, Lay (w v) (k v))
    (o : Option α) : Lay (W.using (Dis.attr o) w) (Slot.orFailAll .attributeError k o) := by
  cases o with
  | none => rfl
  | some v => exact h v

theorem Lay.need {w : Int → W Unit} {k : Int → Slot} (h : ∀ v, Lay (w v) [k v]) (o : Option Int) :
    Lay (W.using (needInt o) w) [Slot.orFail .structError k o] := by
  cases o with
  | none => rfl
  | some v => exact h v

theorem Lay.asInt {α} {w : Int → W Unit} {k : Int → Slot} (h : ∀ v, Lay (w v) [k v]) (o : IntOr α) :
    Lay (W.using (IntOr.asInt o) w) [Slot.orFail .structError k o.int?] := by
  cases o with
  | int v => exact h v
  | obj v => rfl

theorem Lay.index {α} {w : α → W Unit} {k : α → Slot} (h : ∀ v, Lay (w v) [k v]) (l : List α)
    (i : Nat) : Lay (W.using (index l i) w) [Slot.orFail .indexError k l[i]?] := by
  unfold Dis.index
  cases l[i]? with
  | none => rfl
  | some v => exact h v

/-! ## Digits -/

theorem beBytes_eq (n m : Nat) :
    beBytes n m = (List.range n).map fun i => UInt8.ofNat (m / 256 ^ (n - 1 - i) % 256) := by
  induction n with
  | zero => rfl
  | succ n ih =>
    rw [List.range_succ_eq_map, List.map_cons, List.map_map, beBytes, ih]
    simp only [Nat.add_sub_cancel, Nat.sub_zero]
    refine congrArg _ (List.map_congr_left fun i hi => ?_)
    simp only [Function.comp]
    rw [show n - 1 - i = n - (i + 1) by omega]

theorem emod_digit (v : Int) {j n : Nat} (h : j < n) :
    (v % 256 ^ n) / 256 ^ j % 256 = v / 256 ^ j % 256 := by
  have hp : (0 : Int) < 256 ^ j := Int.pow_pos (by decide)
  have e : (256 : Int) ^ n = 256 ^ j * (256 * 256 ^ (n - j - 1)) := by
    rw [← Int.pow_succ', ← Int.pow_add]; congr 1; omega
  have key : ∀ r q : Int, (r + 256 ^ n * q) / 256 ^ j % 256 = r / 256 ^ j % 256 := by
    intro r q
    rw [e, Int.mul_assoc (256 ^ j), Int.add_mul_ediv_left _ _ (by omega), Int.mul_assoc 256,
      Int.add_mul_emod_self_left]
  have := key (v % 256 ^ n) (v / 256 ^ n)
  rw [Int.emod_add_mul_ediv] at this
  exact this.symm

theorem digits_eq (n : Nat) (v : Int) : digits n v = beBytes n (v % 256 ^ n).toNat := by
  rw [beBytes_eq]
  unfold digits
  refine List.map_congr_left fun i hi => ?_
  have hi' : i < n := List.mem_range.1 hi
  have hnn : 0 ≤ v % 256 ^ n := Int.emod_nonneg _ (by have : (0 : Int) < 256 ^ n := Int.pow_pos (by decide); omega)
  rw [← emod_digit v (show n - 1 - i < n by omega)]
  obtain ⟨m, hm⟩ := Int.eq_ofNat_of_zero_le hnn
  rw [hm]
  congr 1

theorem digits_nat (n m : Nat) (h : m < 256 ^ n) : digits n m = beBytes n m := by
  rw [digits_eq]
  congr 1
  have e : ((256 : Int) ^ n) = ((256 ^ n : Nat) : Int) := by simp
  rw [e, ← Int.natCast_emod, Nat.mod_eq_of_lt h]
  rfl

theorem length_digits (n v) : (digits n v).length = n := by simp [digits]

/-! ## The write methods -/

theorem Lay.fixed {x : Except PyErr Bytes} {s : Slot} (h : x = s.encode) :
    Lay (W.writeFixed x) [s] := by
  subst h
  unfold Lay W.writeFixed
  simp only [Slot.stream]
  cases s.encode with
  | error e => rfl
  | ok b => simp [W.bind_def, W.bind, W.ofExcept, W.emit]

theorem pow_cast (n : Nat) : ((256 : Int) ^ n) = ((256 ^ n : Nat) : Int) := by simp

theorem lay_packU (n : Nat) (v : Int) : Lay (W.writeFixed (packU n v)) [.uint n v] := by
  refine Lay.fixed ?_
  simp only [packU, Slot.encode, pow_cast]
  split
  · rename_i h
    have hlt : v.toNat < 256 ^ n := by omega
    have hv : v = (v.toNat : Int) := by omega
    rw [hv, digits_nat _ _ hlt]; rfl
  · rfl

theorem lay_packS (n : Nat) (hn : n ≠ 0) (v : Int) : Lay (W.writeFixed (packS n v)) [.sint n v] := by
  refine Lay.fixed ?_
  have ev : 256 ^ n % 2 = 0 := by
    obtain ⟨m, rfl⟩ := Nat.exists_eq_succ_of_ne_zero hn
    rw [Nat.pow_succ]; omega
  have c : (-((256 ^ n / 2 : Nat) : Int) ≤ v ∧ v < (256 ^ n / 2 : Nat)) ↔
      (-((256 ^ n : Nat) : Int) ≤ 2 * v ∧ 2 * v < (256 ^ n : Nat)) := by omega
  simp only [packS, Slot.encode, digits_eq, pow_cast, c]

theorem lay_unsigned_byte (v) : Lay (write_unsigned_byte v) [.u8 v] := lay_packU 1 v
theorem lay_unsigned_short (v) : Lay (write_unsigned_short v) [.u16 v] := lay_packU 2 v
theorem lay_unsigned_int (v) : Lay (write_unsigned_int v) [.u32 v] := lay_packU 4 v
theorem lay_uint8 (v) : Lay (write_uint8 v) [.u8 v] := lay_packU 1 v
theorem lay_uint16 (v) : Lay (write_uint16 v) [.u16 v] := lay_packU 2 v
theorem lay_uint32 (v) : Lay (write_uint32 v) [.u32 v] := lay_packU 4 v
theorem lay_uint64 (v) : Lay (write_uint64 v) [.u64 v] := lay_packU 8 v
theorem lay_byte (v) : Lay (write_byte v) [.s8 v] := lay_packS 1 (by decide) v
theorem lay_short (v) : Lay (write_short v) [.s16 v] := lay_packS 2 (by decide) v
theorem lay_int (v) : Lay (write_int v) [.s32 v] := lay_packS 4 (by decide) v
theorem lay_long (v) : Lay (write_long v) [.s64 v] := lay_packS 8 (by decide) v

theorem lay_double (x) : Lay (write_double x) [.f64 x] := by
  refine Lay.fixed ?_
  simp only [packD, Slot.encode]
  rw [digits_nat 8 x.toNat (by have := x.isLt; omega)]

theorem lay_float (x) : Lay (write_float x) [.f32 x] := by
  refine Lay.fixed ?_
  simp only [packF, Slot.encode]
  cases narrow x with
  | error e => rfl
  | ok y => simp only [digits_nat 4 y.toNat (by have := y.isLt; omega)]

theorem lay_float64 (x) : Lay (write_float64 x) [.f64 x] := lay_double x
theorem lay_float32 (x) : Lay (write_float32 x) [.f32 x] := lay_float x

theorem bitsValue_go (fs : List (Nat × Int)) (acc : Int) :
    fs.foldl (fun acc f => acc * 2 ^ f.1 + f.2 % 2 ^ f.1) acc =
      acc * 2 ^ (fs.map (·.1)).sum + packBits (fs.map (·.1)) (fs.map (·.2)) := by
  induction fs generalizing acc with
  | nil => simp [packBits]
  | cons f fs ih =>
    simp only [List.foldl_cons, ih, List.map_cons, List.sum_cons, packBits, List.headD_cons,
      List.tail_cons]
    have h : (0 : Int) ≤ f.2 % 2 ^ f.1 := Int.emod_nonneg _ (by have : (0 : Int) < 2 ^ f.1 := Int.pow_pos (by decide); omega)
    rw [Int.natCast_add, Int.natCast_mul, Int.toNat_of_nonneg h, Int.add_mul, Int.mul_assoc, ← Int.pow_add, Int.add_assoc]
    simp

theorem bitsValue_eq (fs : List (Nat × Int)) :
    bitsValue fs = packBits (fs.map (·.1)) (fs.map (·.2)) := by
  unfold bitsValue
  rw [bitsValue_go]; simp

theorem Bitfield.lay {ws : List Nat} {vs : List Int} {n : Nat} {fs : List (Nat × Int)}
    (h1 : fs.map (·.1) = ws) (h2 : packBits ws vs = packBits ws (fs.map (·.2)))
    (h8 : ws.sum = 8 * n) : Lay (Bitfield.serialize ws vs) [.bits n fs] := by
  unfold Bitfield.serialize Lay
  rw [show Slot.stream [.bits n fs] = ⟨digits n (bitsValue fs), .ok ()⟩ by
    simp [Slot.stream, Slot.encode]]
  have hlt := packBits_lt ws (fs.map (·.2))
  rw [bitsValue_eq, h1, h2, digits_nat]
  · rw [h8, Nat.mul_div_cancel_left _ (by decide)]; rfl
  · refine Nat.lt_of_lt_of_eq hlt ?_
    rw [show (256 : Nat) = 2 ^ 8 by rfl, ← Nat.pow_mul, h8]

/-! ## Consequences -/

theorem Slot.encode_width {s : Slot} {b} (h : s.encode = .ok b) : b.length = s.width := by
  cases s <;> simp only [Slot.encode] at h
  · split at h <;> cases h; exact length_digits _ _
  · split at h <;> cases h; exact length_digits _ _
  · split at h <;> cases h; exact length_digits _ _
  · cases h; exact length_digits _ _
  · cases h; exact length_digits _ _
  · cases h; rfl
  · cases h

end Dis
