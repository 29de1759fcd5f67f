import Verif.Proof.Wire

/-! # Proof machinery: the remaining stream methods -/

namespace Dis

theorem rt_uint8 (v : Int) : RT (write_uint8 v) read_uint8 v := rt_unsigned_byte v
theorem sized_uint8 (v : Int) : Sized (write_uint8 v) 1 := sized_unsigned_byte v
theorem ok_uint8 {v : Int} : (write_uint8 v).Ok ↔ U8 v := ok_unsigned_byte
theorem loc_uint8 : Local read_uint8 := loc_unsigned_byte
theorem only_uint8 : OnlyStruct read_uint8 := only_unsigned_byte
theorem post_uint8 : Post read_uint8 (fun b v => U8 v ∧ (write_uint8 v).Emits b) :=
  post_unsigned_byte

theorem rt_uint32 (v : Int) : RT (write_uint32 v) read_uint32 v := rt_unsigned_int v
theorem sized_uint32 (v : Int) : Sized (write_uint32 v) 4 := sized_unsigned_int v
theorem ok_uint32 {v : Int} : (write_uint32 v).Ok ↔ U32 v := ok_unsigned_int
theorem loc_uint32 : Local read_uint32 := loc_unsigned_int
theorem only_uint32 : OnlyStruct read_uint32 := only_unsigned_int
theorem post_uint32 : Post read_uint32 (fun b v => U32 v ∧ (write_uint32 v).Emits b) :=
  post_unsigned_int

theorem rt_char (v : Int) : RT (write_char v) read_char v := rt_unsigned_short v
theorem ok_char {v : Int} : (write_char v).Ok ↔ U16 v := ok_unsigned_short
theorem loc_char : Local read_char := loc_unsigned_short

theorem sized_uint64 (v : Int) : Sized (write_uint64 v) 8 :=
  fun _ h => packU_len (writeFixed_emits.1 h)
theorem ok_uint64 {v : Int} : (write_uint64 v).Ok ↔ U64 v := by
  unfold write_uint64 U64; rw [writeFixed_ok, packU_ok_iff]; constructor <;> intro h <;> omega
theorem loc_uint64 : Local read_uint64 := loc_long
theorem only_uint64 : OnlyStruct read_uint64 := only_long

/-- What reading eight bytes as a signed number makes of an unsigned one. -/
theorem unpackS_packU8 {v : Int} {b : Bytes} (h : packU 8 v = .ok b) :
    b.length = 8 ∧ unpackS 8 b =
      .ok (if v < 9223372036854775808 then v else v - 18446744073709551616) := by
  have hl := packU_len h
  have hv := (unpackU_packU h).2
  refine ⟨hl, ?_⟩
  unfold unpackU at hv
  rw [if_pos hl] at hv
  injection hv with hv
  unfold unpackS
  rw [if_pos hl]
  have hlt := beNat_lt b
  rw [hl] at hlt
  refine congrArg Except.ok ?_
  subst hv
  split <;> split <;> omega

theorem rt_uint64 (v : Int) : RT (write_uint64 v) read_uint64
    (if v < 9223372036854775808 then v else v - 18446744073709551616) :=
  rt_fixed fun _ h => unpackS_packU8 h

theorem post_uint64 : Post read_uint64 (fun b v => S64 v ∧ (0 ≤ v → (write_uint64 v).Emits b)) :=
  (post_readFixed fun _ _ => unpackS_len).mono fun b v h => by
    obtain ⟨hl, hp, hr⟩ := packS_unpackS (by omega) h
    refine ⟨?_, fun h0 => ?_⟩
    · unfold S64; omega
    · refine writeFixed_emits.2 ?_
      unfold unpackS at h
      rw [if_pos hl] at h
      injection h with h
      have hlt := beNat_lt b
      rw [hl] at hlt
      split at h
      · unfold packU
        rw [if_pos (by omega)]
        congr 1
        rw [show v.toNat = beNat b by omega]
        have hb := beBytes_beNat b
        rw [hl] at hb
        exact hb
      · omega

theorem rt_boolean (v : Bool) : RT (write_boolean v) read_boolean v :=
  rt_fixed fun b h => by
    cases h
    cases v <;> exact ⟨rfl, rfl⟩

theorem ok_boolean {v : Bool} : (write_boolean v).Ok ↔ True :=
  iff_true_intro (writeFixed_ok.2 ⟨_, rfl⟩)

theorem loc_boolean : Local read_boolean := local_readFixed fun b v h => by
  cases hu : unpackU 1 b with
  | ok w => exact unpackU_len hu
  | error e => rw [hu] at h; cases h

/-! ## Raw bytes -/

theorem readRaw_at (n : Nat) (pre b post : Bytes) (h : b.length = n) :
    R.readRaw n ⟨pre ++ b ++ post, pre.length⟩ =
      (.ok b, ⟨pre ++ b ++ post, pre.length + b.length⟩) := by
  subst h
  have : ¬ ((b.length : Int) < 0) := by omega
  simp [R.readRaw, this]

theorem read_bytes_run (n : Nat) (pre suf : Bytes) :
    read_bytes (n : Int) ⟨pre ++ suf, pre.length⟩ =
      (.ok (suf.take n), ⟨pre ++ suf, pre.length + (suf.take n).length⟩) := by
  have : ¬ ((n : Int) < 0) := by omega
  simp [read_bytes, R.readRaw, this]

theorem reads_bytes {n : Int} {b : Bytes} (h : (b.length : Int) = n) : Reads (read_bytes n) b b := by
  intro pre post
  subst h
  exact readRaw_at _ _ _ _ rfl

theorem emits_bytes {b c : Bytes} : (write_bytes b).Emits c ↔ c = b := by
  unfold write_bytes W.emit W.Emits
  constructor
  · rintro ⟨h, _⟩; exact h.symm
  · rintro rfl; exact ⟨rfl, (), rfl⟩

theorem rt_bytes (b : Bytes) {n : Int} (h : (b.length : Int) = n) :
    RT (write_bytes b) (read_bytes n) b := by
  intro c hc
  cases emits_bytes.1 hc
  exact reads_bytes h

theorem sized_bytes (b : Bytes) : Sized (write_bytes b) b.length := by
  intro c hc; rw [emits_bytes.1 hc]

theorem ok_bytes {b : Bytes} : (write_bytes b).Ok ↔ True := iff_true_intro ⟨(), rfl⟩

theorem rt_utf (s : Bytes) : RT (write_utf s) read_utf s := by
  unfold write_utf read_utf
  refine RT.bind (rt_fixed (n := 2) (a := (s.length : Int)) fun _ h => unpackU_packU h) ?_
  exact rt_bytes s rfl

end Dis
