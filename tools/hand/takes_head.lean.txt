import Verif.Proof.Pdus5
import Verif.Proof.Stream2

/-!
# A parse that succeeds consumed the wire size of its result

Generated by `tools/gentakes.py`.
-/

set_option linter.unusedVariables false
set_option linter.unusedSimpArgs false

namespace Dis

/-- If `r` succeeds with `a`, it consumed `m a` bytes. -/
abbrev Takes {α : Type} (r : R α) (m : α → Nat) : Prop := Post r (fun b a => b.length = m a)

theorem Takes.times {α} {r : R α} {m : α → Nat} (h : Takes r m) (n : Nat) :
    Post (R.times n r) (fun b l => b.length = (l.map m).sum ∧ l.length = n) := by
  induction n with
  | zero => exact Post.pure _ ⟨rfl, rfl⟩
  | succ n ih =>
    refine Post.bind h fun x b1 h1 => Post.last ih fun xs b2 h2 => ⟨?_, by simp [h2.2]⟩
    simp [h1, h2.1]

theorem Takes.times_const {α} {r : R α} {m : α → Nat} {k : Nat} (h : Takes r m) (hk : ∀ a, m a = k) (n : Nat) :
    Post (R.times n r) (fun b l => b.length = k * l.length ∧ l.length = n) := by
  refine (Takes.times h n).mono fun b l hl => ⟨?_, hl.2⟩
  rw [hl.1]
  clear hl
  induction l with
  | nil => rfl
  | cons x xs ih => simp only [List.map_cons, List.sum_cons, ih, hk, List.length_cons, Nat.mul_add]; omega

theorem len_boolean : Takes read_boolean (fun _ => 1) :=
  (post_readFixed fun b v h => by
    cases hu : unpackU 1 b with
    | ok w => exact unpackU_len hu
    | error e => rw [hu] at h; cases h).mono fun b v h => by
    cases hu : unpackU 1 b with
    | ok w => exact unpackU_len hu
    | error e => rw [hu] at h; cases h

theorem len_byte : Takes read_byte (fun _ => 1) :=
  (post_readFixed fun _ _ => unpackS_len).mono fun _ _ => unpackS_len

theorem len_unsigned_byte : Takes read_unsigned_byte (fun _ => 1) :=
  (post_readFixed fun _ _ => unpackU_len).mono fun _ _ => unpackU_len

theorem len_uint8 : Takes read_uint8 (fun _ => 1) :=
  (post_readFixed fun _ _ => unpackU_len).mono fun _ _ => unpackU_len

theorem len_int8 : Takes read_int8 (fun _ => 1) :=
  (post_readFixed fun _ _ => unpackS_len).mono fun _ _ => unpackS_len

theorem len_short : Takes read_short (fun _ => 2) :=
  (post_readFixed fun _ _ => unpackS_len).mono fun _ _ => unpackS_len

theorem len_unsigned_short : Takes read_unsigned_short (fun _ => 2) :=
  (post_readFixed fun _ _ => unpackU_len).mono fun _ _ => unpackU_len

theorem len_uint16 : Takes read_uint16 (fun _ => 2) :=
  (post_readFixed fun _ _ => unpackU_len).mono fun _ _ => unpackU_len

theorem len_int16 : Takes read_int16 (fun _ => 2) :=
  (post_readFixed fun _ _ => unpackS_len).mono fun _ _ => unpackS_len

theorem len_int : Takes read_int (fun _ => 4) :=
  (post_readFixed fun _ _ => unpackS_len).mono fun _ _ => unpackS_len

theorem len_unsigned_int : Takes read_unsigned_int (fun _ => 4) :=
  (post_readFixed fun _ _ => unpackU_len).mono fun _ _ => unpackU_len

theorem len_uint32 : Takes read_uint32 (fun _ => 4) :=
  (post_readFixed fun _ _ => unpackU_len).mono fun _ _ => unpackU_len

theorem len_int32 : Takes read_int32 (fun _ => 4) :=
  (post_readFixed fun _ _ => unpackS_len).mono fun _ _ => unpackS_len

theorem len_long : Takes read_long (fun _ => 8) :=
  (post_readFixed fun _ _ => unpackS_len).mono fun _ _ => unpackS_len

theorem len_int64 : Takes read_int64 (fun _ => 8) :=
  (post_readFixed fun _ _ => unpackS_len).mono fun _ _ => unpackS_len

theorem len_uint64 : Takes read_uint64 (fun _ => 8) :=
  (post_readFixed fun _ _ => unpackS_len).mono fun _ _ => unpackS_len

theorem len_float : Takes read_float (fun _ => 4) :=
  (post_readFixed fun _ _ => unpackF_len).mono fun _ _ => unpackF_len

theorem len_float32 : Takes read_float32 (fun _ => 4) :=
  (post_readFixed fun _ _ => unpackF_len).mono fun _ _ => unpackF_len

theorem len_double : Takes read_double (fun _ => 8) :=
  (post_readFixed fun _ _ => unpackD_len).mono fun _ _ => unpackD_len

theorem len_float64 : Takes read_float64 (fun _ => 8) :=
  (post_readFixed fun _ _ => unpackD_len).mono fun _ _ => unpackD_len
