import Verif.Spec.Streams
import Verif.Proof.Stream2
import Verif.Proof.Layout

/-! # Proof machinery: the methods of the streams in general form -/

namespace Dis

theorem beValue_go (b : Bytes) (acc : Int) :
    b.foldl (fun acc x => 256 * acc + (x.toNat : Int)) acc = acc * 256 ^ b.length + beNat b := by
  induction b generalizing acc with
  | nil => simp [beNat]
  | cons x xs ih =>
    simp only [List.foldl_cons, ih, beNat, List.length_cons]
    rw [Int.add_mul, Int.pow_succ, Int.natCast_add, Int.natCast_mul, Int.add_assoc, pow_cast]
    congr 1
    rw [Int.mul_assoc, Int.mul_comm 256, Int.mul_assoc]

theorem beValue_eq (b : Bytes) : beValue b = beNat b := by
  unfold beValue
  rw [beValue_go]; simp

/-- A write method is a `struct.pack` of the given width and signedness. -/
def IntWriter.Packs (w : IntWriter) : Prop :=
  w.width ≠ 0 ∧ ∀ v, w.write v = W.writeFixed (if w.signed then packS w.width v else packU w.width v)

/-- A read method is a `struct.unpack` of the given width and signedness. -/
def IntReader.Unpacks (r : IntReader) : Prop :=
  r.width ≠ 0 ∧ r.read = R.readFixed r.width (if r.signed then unpackS r.width else unpackU r.width)

theorem intPairs_spec : ∀ p ∈ intPairs, p.1.Packs ∧ p.2.Unpacks ∧ p.1.width = p.2.width ∧
    p.1.signed = p.2.signed := by
  unfold intPairs
  repeat first
    | exact fun _ h => absurd h (List.not_mem_nil)
    | refine List.forall_mem_cons.2 ⟨⟨⟨by decide, fun v => rfl⟩, ⟨by decide, rfl⟩, rfl, rfl⟩, ?_⟩

theorem intWriters_spec : ∀ w ∈ intWriters, w.Packs := by
  intro w hw
  rcases List.mem_append.1 hw with h | h
  · obtain ⟨p, hp, rfl⟩ := List.mem_map.1 h
    exact (intPairs_spec p hp).1
  · rcases List.mem_cons.1 h with rfl | h
    · exact ⟨by decide, fun _ => rfl⟩
    · rcases List.mem_cons.1 h with rfl | h
      · exact ⟨by decide, fun _ => rfl⟩
      · cases h

theorem intReaders_spec : ∀ r ∈ intReaders, r.Unpacks := by
  intro w hw
  rcases List.mem_append.1 hw with h | h
  · obtain ⟨p, hp, rfl⟩ := List.mem_map.1 h
    exact (intPairs_spec p hp).2.1
  · rcases List.mem_cons.1 h with rfl | h
    · exact ⟨by decide, rfl⟩
    · rcases List.mem_cons.1 h with rfl | h
      · exact ⟨by decide, rfl⟩
      · cases h

theorem two_pow_8 (n : Nat) : (2 : Int) ^ (8 * n) = ((256 ^ n : Nat) : Int) := by
  rw [← pow_cast, Int.pow_mul]; rfl

theorem two_pow_8_half {n : Nat} (h : n ≠ 0) :
    2 * (2 : Int) ^ (8 * n - 1) = ((256 ^ n : Nat) : Int) := by
  rw [← two_pow_8, ← Int.pow_succ']; congr 1; omega

theorem half_256 {n : Nat} (h : n ≠ 0) : 2 * (256 ^ n / 2) = 256 ^ n := by
  obtain ⟨m, rfl⟩ := Nat.exists_eq_succ_of_ne_zero h
  rw [Nat.pow_succ]; omega

theorem intRange_pack {s : Bool} {n : Nat} (hn : n ≠ 0) {v : Int} :
    IntRange s n v ↔ ∃ b, (if s then packS n v else packU n v) = .ok b := by
  have h1 := two_pow_8_half hn
  have h2 := half_256 hn
  cases s with
  | true =>
    simp only [IntRange, if_true, packS_ok_iff]
    omega
  | false =>
    simp only [IntRange, Bool.false_eq_true, if_false, packU_ok_iff, two_pow_8]

theorem pack_error {s : Bool} {n : Nat} {v : Int} {e}
    (h : (if s then packS n v else packU n v) = .error e) : e = .structError := by
  cases s <;> simp only [Bool.false_eq_true, if_true, if_false, packS, packU] at h <;>
    (split at h <;> cases h; rfl)

theorem pack_value {s : Bool} {n : Nat} {v : Int} {b}
    (h : (if s then packS n v else packU n v) = .ok b) :
    b.length = n ∧ (beNat b : Int) = v % (256 ^ n : Nat) := by
  cases s <;> simp only [Bool.false_eq_true, if_true, if_false, packS, packU] at h <;> split at h <;>
    cases h
  · rename_i h
    refine ⟨length_beBytes _ _, ?_⟩
    rw [beNat_beBytes, Nat.mod_eq_of_lt (by omega), Int.emod_eq_of_lt h.1 h.2]
    omega
  · rename_i h
    refine ⟨length_beBytes _ _, ?_⟩
    have hp : (0 : Int) < (256 ^ n : Nat) := by
      have : 0 < 256 ^ n := Nat.pow_pos (by decide)
      omega
    have h0 := Int.emod_nonneg v (b := ((256 ^ n : Nat) : Int)) (by omega)
    have h1 := Int.emod_lt_of_pos v hp
    rw [beNat_beBytes, Nat.mod_eq_of_lt (by omega)]
    omega

theorem unpack_pack {s : Bool} {n : Nat} (hn : n ≠ 0) {v : Int} {b}
    (h : (if s then packS n v else packU n v) = .ok b) :
    b.length = n ∧ (if s then unpackS n else unpackU n) b = .ok v := by
  cases s <;> simp only [Bool.false_eq_true, if_true, if_false] at h ⊢
  · exact unpackU_packU h
  · exact unpackS_packS (by omega) h

theorem unpack_len {s : Bool} {n : Nat} {v : Int} {b}
    (h : (if s then unpackS n else unpackU n) b = .ok v) : b.length = n := by
  cases s <;> simp only [Bool.false_eq_true, if_true, if_false] at h
  · exact unpackU_len h
  · exact unpackS_len h

theorem unpack_err {s : Bool} {n : Nat} {b e}
    (h : (if s then unpackS n else unpackU n) b = .error e) : e = .structError := by
  cases s <;> simp only [Bool.false_eq_true, if_true, if_false] at h
  · exact unpackU_err h
  · exact unpackS_err h

theorem readFixed_short {α} {n : Nat} (h0 : n ≠ 0) {un : Bytes → Except PyErr α}
    (hl : ∀ b v, un b = .ok v → b.length = n) (he : ∀ b e, un b = .error e → e = .structError)
    {s : InStream} (h : s.data.length < s.pos + n) :
    (R.readFixed n un s).1 = .error .structError ∧ (R.readFixed n un s).2.data = s.data := by
  have hn : ¬ ((n : Int) < 0) := by omega
  have : R.readFixed n un s = (un ((s.data.drop s.pos).take n),
      { s with pos := s.pos + ((s.data.drop s.pos).take n).length }) := by
    simp [R.readFixed, R.bind_def, R.bind, R.readRaw, R.ofExcept, hn]
  rw [this]
  refine ⟨?_, rfl⟩
  cases hu : un ((s.data.drop s.pos).take n) with
  | ok v =>
    have := hl _ _ hu
    simp at this
    omega
  | error e => rw [he _ _ hu]

theorem readFixed_long {α} {n : Nat} {un : Bytes → Except PyErr α} (s : InStream) :
    R.readFixed n un s = (un ((s.data.drop s.pos).take n),
      { s with pos := s.pos + ((s.data.drop s.pos).take n).length }) := by
  have hn : ¬ ((n : Int) < 0) := by omega
  simp [R.readFixed, R.bind_def, R.bind, R.readRaw, R.ofExcept, hn]

end Dis
