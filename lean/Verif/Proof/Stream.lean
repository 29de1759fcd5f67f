import Verif.Proof.Core
import Verif.Proof.Num
import Verif.Proof.Float
import Verif.Py.Object

/-! # Proof machinery for the stream methods: per method round trip, size, range, locality -/

namespace Dis

/-! ## Reading backwards: what a successful read tells about the bytes -/

/-- If `r` succeeds inside `pre ++ suf`, it consumed some `b` at the front of `suf` with `Q b a`. -/
def Post {α} (r : R α) (Q : Bytes → α → Prop) : Prop :=
  ∀ pre suf a s', r ⟨pre ++ suf, pre.length⟩ = (.ok a, s') →
    ∃ b rest, suf = b ++ rest ∧ s' = ⟨pre ++ suf, pre.length + b.length⟩ ∧ Q b a

theorem Post.mono {α} {r : R α} {Q Q' : Bytes → α → Prop} (h : Post r Q)
    (hq : ∀ b a, Q b a → Q' b a) : Post r Q' := by
  intro pre suf a s' hr
  obtain ⟨b, rest, h1, h2, h3⟩ := h pre suf a s' hr
  exact ⟨b, rest, h1, h2, hq _ _ h3⟩

theorem Post.pure {α} {Q : Bytes → α → Prop} (a : α) (h : Q [] a) : Post (pure a) Q := by
  intro pre suf a' s' hr
  cases hr
  exact ⟨[], suf, rfl, rfl, h⟩

theorem Post.throw {α} {Q : Bytes → α → Prop} (e) : Post (R.throw e : R α) Q := by
  intro pre suf a' s' hr; cases hr

theorem Post.bind {α β} {r : R α} {k : α → R β} {Q1 : Bytes → α → Prop} {Q : Bytes → β → Prop}
    (h1 : Post r Q1) (h2 : ∀ a b1, Q1 b1 a → Post (k a) (fun b2 c => Q (b1 ++ b2) c)) :
    Post (r >>= k) Q := by
  intro pre suf c s' h
  obtain ⟨a, s1, hr, hk⟩ := R.bind_inv h
  obtain ⟨b1, rest1, rfl, rfl, hq1⟩ := h1 _ _ _ _ hr
  have hk' : k a ⟨(pre ++ b1) ++ rest1, (pre ++ b1).length⟩ = (.ok c, s') := by
    simpa [List.append_assoc] using hk
  obtain ⟨b2, rest2, rfl, rfl, hq2⟩ := h2 a b1 hq1 _ _ _ _ hk'
  exact ⟨b1 ++ b2, rest2, by simp, by simp [Nat.add_assoc], hq2⟩

theorem Post.last {α β} {r : R α} {f : α → β} {Q1 : Bytes → α → Prop} {Q : Bytes → β → Prop}
    (h1 : Post r Q1) (h2 : ∀ a b, Q1 b a → Q b (f a)) :
    Post (r >>= fun x => Pure.pure (f x)) Q :=
  Post.bind h1 fun a b h => Post.pure _ (by simpa using h2 a b h)

theorem Post.times {α} {r : R α} {w : α → W Unit} {P C : α → Prop}
    (h : Post r (fun b x => P x ∧ (C x → (w x).Emits b))) (n : Nat) :
    Post (R.times n r) (fun b l => l.length = n ∧ (∀ x ∈ l, P x) ∧
      ((∀ x ∈ l, C x) → (W.forEach l w).Emits b)) := by
  induction n with
  | zero => exact Post.pure _ ⟨rfl, by simp, fun _ => W.emits_pure ()⟩
  | succ n ih =>
    refine Post.bind h fun x b1 h1 => Post.last ih fun xs b2 h2 => ⟨by simp [h2.1], ?_, ?_⟩
    · intro y hy
      rcases List.mem_cons.1 hy with rfl | hy
      · exact h1.1
      · exact h2.2.1 y hy
    · intro hc
      exact W.Emits.bind (h1.2 (hc x (by simp))) (h2.2.2 fun y hy => hc y (by simp [hy]))

theorem Post.times' {α} {r : R α} {P : α → Prop}
    (h : Post r (fun _ x => P x)) (n : Nat) :
    Post (R.times n r) (fun _ l => l.length = n ∧ ∀ x ∈ l, P x) := by
  induction n with
  | zero => exact Post.pure _ ⟨rfl, by simp⟩
  | succ n ih =>
    refine Post.bind h fun x b1 h1 => Post.last ih fun xs b2 h2 => ⟨by simp [h2.1], ?_⟩
    intro y hy
    rcases List.mem_cons.1 hy with rfl | hy
    · exact h1
    · exact h2.2 y hy

theorem Post.times_throw {α} (e : PyErr) (n : Nat) :
    Post (R.times n (R.throw e : R α)) (fun b l => n = 0 ∧ l = [] ∧ b = []) := by
  cases n with
  | zero => exact Post.pure _ ⟨rfl, rfl, rfl⟩
  | succ n => exact Post.bind (Post.throw (Q := fun _ _ => False) e) fun _ _ h => h.elim

/-- From the statement inside any stream to the statement about `Reads`. -/
theorem Post.reads {α} {r : R α} {Q : Bytes → α → Prop} (h : Post r Q) {b a} (hr : Reads r b a) :
    Q b a := by
  obtain ⟨b', rest, h1, h2, h3⟩ := h [] b a ⟨b, b.length⟩ (by simpa using hr.run)
  injection h2 with _ h2
  subst h1
  have : rest = [] := by
    cases rest with
    | nil => rfl
    | cons x xs => simp at h2
  subst this
  simpa using h3

/-! ## Only `struct.error` -/

/-- The reader ends with a value or with `struct.error`. -/
def OnlyStruct {α} (r : R α) : Prop := ∀ st e, (r st).1 = .error e → e = .structError

theorem OnlyStruct.pure {α} (a : α) : OnlyStruct (pure a : R α) := by intro st e h; cases h

theorem OnlyStruct.bind {α β} {r : R α} {k : α → R β} (h1 : OnlyStruct r)
    (h2 : ∀ a, OnlyStruct (k a)) : OnlyStruct (r >>= k) := by
  intro st e h
  rcases hr : r st with ⟨x, s1⟩
  cases x with
  | ok a => rw [R.bind_ok hr] at h; exact h2 a _ _ h
  | error e' => rw [R.bind_error hr] at h; cases h; exact h1 st _ (by rw [hr])

theorem OnlyStruct.times {α} {r : R α} (h : OnlyStruct r) (n : Nat) : OnlyStruct (R.times n r) := by
  induction n with
  | zero => exact OnlyStruct.pure _
  | succ n ih => exact OnlyStruct.bind h fun _ => OnlyStruct.bind ih fun _ => OnlyStruct.pure _

/-! ## Fixed-size methods in general -/

theorem writeFixed_emits {p : Except PyErr Bytes} {b : Bytes} :
    (W.writeFixed p).Emits b ↔ p = .ok b := by
  cases p with
  | ok c =>
    show (⟨[] ++ c, .ok ()⟩ : W Unit).Emits b ↔ _
    simp [W.Emits]
  | error e =>
    show (⟨[], .error e⟩ : W Unit).Emits b ↔ _
    simp [W.Emits]

theorem writeFixed_ok {p : Except PyErr Bytes} : (W.writeFixed p).Ok ↔ ∃ b, p = .ok b := by
  constructor
  · intro h; exact ⟨_, writeFixed_emits.1 h.emits⟩
  · rintro ⟨b, h⟩; exact (writeFixed_emits.2 h).ok

theorem reads_readFixed {α} {n : Nat} {un : Bytes → Except PyErr α} {b : Bytes} {a : α}
    (hb : b.length = n) (h : un b = .ok a) : Reads (R.readFixed n un) b a := by
  intro pre post
  have : R.readRaw n ⟨pre ++ b ++ post, pre.length⟩ =
      (.ok b, ⟨pre ++ b ++ post, pre.length + b.length⟩) := by
    simp only [R.readRaw, List.append_assoc, List.drop_left']
    rw [if_neg (by omega)]
    simp [hb]
  unfold R.readFixed
  rw [R.bind_ok this]
  simp [R.ofExcept, h]

theorem post_readFixed {α} {n : Nat} {un : Bytes → Except PyErr α}
    (hl : ∀ b a, un b = .ok a → b.length = n) :
    Post (R.readFixed n un) (fun b a => un b = .ok a) := by
  intro pre suf a s' h
  unfold R.readFixed at h
  obtain ⟨b, s1, h1, h2⟩ := R.bind_inv h
  simp only [R.readRaw] at h1
  rw [if_neg (by omega)] at h1
  simp only [List.drop_left', Int.toNat_natCast] at h1
  injection h1 with h1 h1'
  injection h1 with h1
  subst h1'
  injection h2 with h2 h2'
  subst h2'
  subst h1
  have := hl _ _ h2
  refine ⟨suf.take n, suf.drop n, (List.take_append_drop n suf).symm, rfl, h2⟩

theorem local_readFixed {α} {n : Nat} {un : Bytes → Except PyErr α}
    (hl : ∀ b a, un b = .ok a → b.length = n) : Local (R.readFixed n un) :=
  (post_readFixed hl).mono fun _ _ h => reads_readFixed (hl _ _ h) h

theorem onlyStruct_readFixed {α} {n : Nat} {un : Bytes → Except PyErr α}
    (he : ∀ b e, un b = .error e → e = .structError) : OnlyStruct (R.readFixed n un) := by
  unfold R.readFixed
  refine OnlyStruct.bind ?_ fun b => ?_
  · intro st e h; cases h
  · intro st e h; exact he b e h

theorem rt_fixed {α} {n : Nat} {p : Except PyErr Bytes} {un : Bytes → Except PyErr α} {a : α}
    (h : ∀ b, p = .ok b → b.length = n ∧ un b = .ok a) :
    RT (W.writeFixed p) (R.readFixed n un) a := by
  intro b hb
  obtain ⟨h1, h2⟩ := h b (writeFixed_emits.1 hb)
  exact reads_readFixed h1 h2

theorem packU_len {n v b} (h : packU n v = .ok b) : b.length = n := by
  unfold packU at h; split at h
  · cases h; simp
  · cases h

theorem packS_len {n v b} (h : packS n v = .ok b) : b.length = n := by
  unfold packS at h; split at h
  · cases h; simp
  · cases h

theorem unpackU_len {n b v} (h : unpackU n b = .ok v) : b.length = n := by
  unfold unpackU at h; split at h
  · assumption
  · cases h

theorem unpackS_len {n b v} (h : unpackS n b = .ok v) : b.length = n := by
  unfold unpackS at h; split at h
  · assumption
  · cases h

theorem unpackU_err {n b e} (h : unpackU n b = .error e) : e = .structError := by
  unfold unpackU at h; split at h <;> cases h; rfl

theorem unpackS_err {n b e} (h : unpackS n b = .error e) : e = .structError := by
  unfold unpackS at h; split at h <;> cases h; rfl

theorem packU_ok_iff {n v} : (∃ b, packU n v = .ok b) ↔ 0 ≤ v ∧ v < (256 ^ n : Nat) := by
  unfold packU; split <;> simp_all

theorem packS_ok_iff {n v} : (∃ b, packS n v = .ok b) ↔
    -((256 ^ n / 2 : Nat) : Int) ≤ v ∧ v < (256 ^ n / 2 : Nat) := by
  unfold packS; split <;> simp_all

theorem packF_ok_iff {x} : (∃ b, packF x = .ok b) ↔ F32Fits x := by
  unfold packF F32Fits
  cases h : narrow x <;> simp

theorem packF_len {x b} (h : packF x = .ok b) : b.length = 4 := by
  unfold packF at h; split at h
  · cases h; simp
  · cases h

theorem unpackF_len {b x} (h : unpackF b = .ok x) : b.length = 4 := by
  unfold unpackF at h; split at h
  · assumption
  · cases h

theorem unpackD_len {b x} (h : unpackD b = .ok x) : b.length = 8 := by
  unfold unpackD at h; split at h
  · assumption
  · cases h

theorem unpackF_err {b e} (h : unpackF b = .error e) : e = .structError := by
  unfold unpackF at h; split at h <;> cases h; rfl

theorem unpackD_err {b e} (h : unpackD b = .error e) : e = .structError := by
  unfold unpackD at h; split at h <;> cases h; rfl

/-! ## The integer methods -/

theorem rt_unsigned_byte (v : Int) : RT (write_unsigned_byte v) read_unsigned_byte v :=
  rt_fixed fun _ h => unpackU_packU h
theorem sized_unsigned_byte (v : Int) : Sized (write_unsigned_byte v) 1 :=
  fun _ h => packU_len (writeFixed_emits.1 h)
theorem ok_unsigned_byte {v : Int} : (write_unsigned_byte v).Ok ↔ U8 v := by
  unfold write_unsigned_byte U8; rw [writeFixed_ok, packU_ok_iff]; constructor <;> intro h <;> omega
theorem loc_unsigned_byte : Local read_unsigned_byte := local_readFixed fun _ _ => unpackU_len
theorem only_unsigned_byte : OnlyStruct read_unsigned_byte := onlyStruct_readFixed fun _ _ => unpackU_err
theorem post_unsigned_byte : Post read_unsigned_byte (fun b v => U8 v ∧ (write_unsigned_byte v).Emits b) :=
  (post_readFixed fun _ _ => unpackU_len).mono fun b v h => by
    have hp := (packU_unpackU h).2.1
    exact ⟨ok_unsigned_byte.1 (writeFixed_emits.2 hp).ok, writeFixed_emits.2 hp⟩

theorem rt_byte (v : Int) : RT (write_byte v) read_byte v :=
  rt_fixed fun _ h => unpackS_packS (by omega) h
theorem sized_byte (v : Int) : Sized (write_byte v) 1 :=
  fun _ h => packS_len (writeFixed_emits.1 h)
theorem ok_byte {v : Int} : (write_byte v).Ok ↔ S8 v := by
  unfold write_byte S8; rw [writeFixed_ok, packS_ok_iff]; constructor <;> intro h <;> omega
theorem loc_byte : Local read_byte := local_readFixed fun _ _ => unpackS_len
theorem only_byte : OnlyStruct read_byte := onlyStruct_readFixed fun _ _ => unpackS_err
theorem post_byte : Post read_byte (fun b v => S8 v ∧ (write_byte v).Emits b) :=
  (post_readFixed fun _ _ => unpackS_len).mono fun b v h => by
    have hp := (packS_unpackS (by omega) h).2.1
    exact ⟨ok_byte.1 (writeFixed_emits.2 hp).ok, writeFixed_emits.2 hp⟩

theorem rt_unsigned_short (v : Int) : RT (write_unsigned_short v) read_unsigned_short v :=
  rt_fixed fun _ h => unpackU_packU h
theorem sized_unsigned_short (v : Int) : Sized (write_unsigned_short v) 2 :=
  fun _ h => packU_len (writeFixed_emits.1 h)
theorem ok_unsigned_short {v : Int} : (write_unsigned_short v).Ok ↔ U16 v := by
  unfold write_unsigned_short U16; rw [writeFixed_ok, packU_ok_iff]; constructor <;> intro h <;> omega
theorem loc_unsigned_short : Local read_unsigned_short := local_readFixed fun _ _ => unpackU_len
theorem only_unsigned_short : OnlyStruct read_unsigned_short := onlyStruct_readFixed fun _ _ => unpackU_err
theorem post_unsigned_short : Post read_unsigned_short (fun b v => U16 v ∧ (write_unsigned_short v).Emits b) :=
  (post_readFixed fun _ _ => unpackU_len).mono fun b v h => by
    have hp := (packU_unpackU h).2.1
    exact ⟨ok_unsigned_short.1 (writeFixed_emits.2 hp).ok, writeFixed_emits.2 hp⟩

theorem rt_short (v : Int) : RT (write_short v) read_short v :=
  rt_fixed fun _ h => unpackS_packS (by omega) h
theorem sized_short (v : Int) : Sized (write_short v) 2 :=
  fun _ h => packS_len (writeFixed_emits.1 h)
theorem ok_short {v : Int} : (write_short v).Ok ↔ S16 v := by
  unfold write_short S16; rw [writeFixed_ok, packS_ok_iff]; constructor <;> intro h <;> omega
theorem loc_short : Local read_short := local_readFixed fun _ _ => unpackS_len
theorem only_short : OnlyStruct read_short := onlyStruct_readFixed fun _ _ => unpackS_err
theorem post_short : Post read_short (fun b v => S16 v ∧ (write_short v).Emits b) :=
  (post_readFixed fun _ _ => unpackS_len).mono fun b v h => by
    have hp := (packS_unpackS (by omega) h).2.1
    exact ⟨ok_short.1 (writeFixed_emits.2 hp).ok, writeFixed_emits.2 hp⟩

theorem rt_unsigned_int (v : Int) : RT (write_unsigned_int v) read_unsigned_int v :=
  rt_fixed fun _ h => unpackU_packU h
theorem sized_unsigned_int (v : Int) : Sized (write_unsigned_int v) 4 :=
  fun _ h => packU_len (writeFixed_emits.1 h)
theorem ok_unsigned_int {v : Int} : (write_unsigned_int v).Ok ↔ U32 v := by
  unfold write_unsigned_int U32; rw [writeFixed_ok, packU_ok_iff]; constructor <;> intro h <;> omega
theorem loc_unsigned_int : Local read_unsigned_int := local_readFixed fun _ _ => unpackU_len
theorem only_unsigned_int : OnlyStruct read_unsigned_int := onlyStruct_readFixed fun _ _ => unpackU_err
theorem post_unsigned_int : Post read_unsigned_int (fun b v => U32 v ∧ (write_unsigned_int v).Emits b) :=
  (post_readFixed fun _ _ => unpackU_len).mono fun b v h => by
    have hp := (packU_unpackU h).2.1
    exact ⟨ok_unsigned_int.1 (writeFixed_emits.2 hp).ok, writeFixed_emits.2 hp⟩

theorem rt_int (v : Int) : RT (write_int v) read_int v :=
  rt_fixed fun _ h => unpackS_packS (by omega) h
theorem sized_int (v : Int) : Sized (write_int v) 4 :=
  fun _ h => packS_len (writeFixed_emits.1 h)
theorem ok_int {v : Int} : (write_int v).Ok ↔ S32 v := by
  unfold write_int S32; rw [writeFixed_ok, packS_ok_iff]; constructor <;> intro h <;> omega
theorem loc_int : Local read_int := local_readFixed fun _ _ => unpackS_len
theorem only_int : OnlyStruct read_int := onlyStruct_readFixed fun _ _ => unpackS_err
theorem post_int : Post read_int (fun b v => S32 v ∧ (write_int v).Emits b) :=
  (post_readFixed fun _ _ => unpackS_len).mono fun b v h => by
    have hp := (packS_unpackS (by omega) h).2.1
    exact ⟨ok_int.1 (writeFixed_emits.2 hp).ok, writeFixed_emits.2 hp⟩

theorem rt_long (v : Int) : RT (write_long v) read_long v :=
  rt_fixed fun _ h => unpackS_packS (by omega) h
theorem sized_long (v : Int) : Sized (write_long v) 8 :=
  fun _ h => packS_len (writeFixed_emits.1 h)
theorem ok_long {v : Int} : (write_long v).Ok ↔ S64 v := by
  unfold write_long S64; rw [writeFixed_ok, packS_ok_iff]; constructor <;> intro h <;> omega
theorem loc_long : Local read_long := local_readFixed fun _ _ => unpackS_len
theorem only_long : OnlyStruct read_long := onlyStruct_readFixed fun _ _ => unpackS_err
theorem post_long : Post read_long (fun b v => S64 v ∧ (write_long v).Emits b) :=
  (post_readFixed fun _ _ => unpackS_len).mono fun b v h => by
    have hp := (packS_unpackS (by omega) h).2.1
    exact ⟨ok_long.1 (writeFixed_emits.2 hp).ok, writeFixed_emits.2 hp⟩

theorem rt_uint16 (v : Int) : RT (write_uint16 v) read_uint16 v := rt_unsigned_short v
theorem sized_uint16 (v : Int) : Sized (write_uint16 v) 2 := sized_unsigned_short v
theorem ok_uint16 {v : Int} : (write_uint16 v).Ok ↔ U16 v := ok_unsigned_short
theorem loc_uint16 : Local read_uint16 := loc_unsigned_short
theorem only_uint16 : OnlyStruct read_uint16 := only_unsigned_short
theorem post_uint16 : Post read_uint16 (fun b v => U16 v ∧ (write_uint16 v).Emits b) :=
  post_unsigned_short

/-! ## The floating-point methods -/

theorem rt_float (v : F64) : RT (write_float v) read_float (quant v) :=
  rt_fixed fun _ h => unpackF_packF h
theorem sized_float (v : F64) : Sized (write_float v) 4 :=
  fun _ h => packF_len (writeFixed_emits.1 h)
theorem ok_float {v : F64} : (write_float v).Ok ↔ F32Fits v := by
  unfold write_float; rw [writeFixed_ok, packF_ok_iff]
theorem loc_float : Local read_float := local_readFixed fun _ _ => unpackF_len
theorem only_float : OnlyStruct read_float := onlyStruct_readFixed fun _ _ => unpackF_err
theorem post_float : Post read_float
    (fun b v => (F32Fits v ∧ quant v = v) ∧ (¬ v.isNaN → (write_float v).Emits b)) :=
  (post_readFixed fun _ _ => unpackF_len).mono fun b v h => by
    obtain ⟨-, b', h1, -, h2, h3⟩ := packF_unpackF h
    exact ⟨⟨packF_ok_iff.1 ⟨_, h1⟩, h3⟩, fun hn => writeFixed_emits.2 (h2 hn ▸ h1)⟩

theorem rt_double (v : F64) : RT (write_double v) read_double v :=
  rt_fixed fun _ h => unpackD_packD h
theorem sized_double (v : F64) : Sized (write_double v) 8 := by
  intro b h
  cases writeFixed_emits.1 h
  simp
theorem ok_double {v : F64} : (write_double v).Ok ↔ True := by
  unfold write_double; rw [writeFixed_ok]; simp [packD]
theorem loc_double : Local read_double := local_readFixed fun _ _ => unpackD_len
theorem only_double : OnlyStruct read_double := onlyStruct_readFixed fun _ _ => unpackD_err
theorem post_double : Post read_double (fun b v => (write_double v).Emits b) :=
  (post_readFixed fun _ _ => unpackD_len).mono fun _ _ h => writeFixed_emits.2 (packD_unpackD h).2

theorem rt_float32 (v : F64) : RT (write_float32 v) read_float32 (quant v) := rt_float v
theorem sized_float32 (v : F64) : Sized (write_float32 v) 4 := sized_float v
theorem ok_float32 {v : F64} : (write_float32 v).Ok ↔ F32Fits v := ok_float
theorem loc_float32 : Local read_float32 := loc_float
theorem only_float32 : OnlyStruct read_float32 := only_float
theorem post_float32 : Post read_float32
    (fun b v => (F32Fits v ∧ quant v = v) ∧ (¬ v.isNaN → (write_float32 v).Emits b)) := post_float

theorem rt_float64 (v : F64) : RT (write_float64 v) read_float64 v := rt_double v
theorem sized_float64 (v : F64) : Sized (write_float64 v) 8 := sized_double v
theorem ok_float64 {v : F64} : (write_float64 v).Ok ↔ True := ok_double
theorem loc_float64 : Local read_float64 := loc_double
theorem only_float64 : OnlyStruct read_float64 := only_double
theorem post_float64 : Post read_float64 (fun b v => (write_float64 v).Emits b) := post_double

/-! ## Arguments that may raise -/

theorem rt_using_attr {α β} [Inhabited α] {w : α → W Unit} {r : R β} {f : α → β} (o : Option α)
    (d : α) (h : ∀ v, RT (w v) r (f v)) : RT (W.using (attr o) w) r (f (o.getD d)) := by
  cases o with
  | some v => exact h v
  | none => exact RT.of_not_ok (W.not_ok_throw _)

theorem rt_using_need {β} {w : Int → W Unit} {r : R β} {f : Int → β} (o : Option Int)
    (d : Int) (h : ∀ v, RT (w v) r (f v)) : RT (W.using (needInt o) w) r (f (o.getD d)) := by
  cases o with
  | some v => exact h v
  | none => exact RT.of_not_ok (W.not_ok_throw _)

theorem sized_using {α} {w : α → W Unit} {x : Except PyErr α} {n} (h : ∀ v, Sized (w v) n) :
    Sized (W.using x w) n := by
  cases x with
  | ok v => exact h v
  | error e => exact Sized.of_not_ok (W.not_ok_throw _)

theorem ok_using {α} {w : α → W Unit} {x : Except PyErr α} :
    (W.using x w).Ok ↔ ∃ v, x = .ok v ∧ (w v).Ok := by
  cases x with
  | ok v => simp [W.using]
  | error e => simp [W.using, W.not_ok_throw]

theorem ok_using_attr {α} {w : α → W Unit} {o : Option α} :
    (W.using (attr o) w).Ok ↔ ∃ v, o = some v ∧ (w v).Ok := by
  rw [ok_using]
  cases o <;> simp [attr]

theorem ok_using_need {w : Int → W Unit} {o : Option Int} :
    (W.using (needInt o) w).Ok ↔ ∃ v, o = some v ∧ (w v).Ok := by
  rw [ok_using]
  cases o <;> simp [needInt]

/-! ## Indexed loops over fixed arrays -/

theorem forRange_index_ok {w : Int → W Unit} (l : List Int) (n i : Nat) :
    (W.forRange i n fun idx => W.using (index l idx) w).Ok ↔
      (n = 0 ∨ i + n ≤ l.length) ∧ ∀ x ∈ (l.drop i).take n, (w x).Ok := by
  induction n generalizing i with
  | zero => simp [W.forRange]
  | succ n ih =>
    unfold W.forRange
    rw [W.ok_bind, ih, ok_using]
    by_cases hi : i < l.length
    · rw [List.drop_eq_getElem_cons hi, List.take_succ_cons]
      simp only [index, List.getElem?_eq_getElem hi, List.mem_cons, forall_eq_or_imp]
      constructor
      · rintro ⟨⟨v, hv, h1⟩, h2, h3⟩
        cases hv
        exact ⟨by omega, h1, h3⟩
      · rintro ⟨h1, h2, h3⟩
        exact ⟨⟨_, rfl, h2⟩, by omega, h3⟩
    · simp only [index, List.getElem?_eq_none (Nat.le_of_not_lt hi)]
      constructor
      · rintro ⟨⟨v, hv, -⟩, -⟩; cases hv
      · rintro ⟨h, -⟩; omega

theorem forRange_index_eq {w : Int → W Unit} (l : List Int) (n i : Nat) (h : i + n ≤ l.length) :
    (W.forRange i n fun idx => W.using (index l idx) w) = W.forEach ((l.drop i).take n) w := by
  induction n generalizing i with
  | zero => simp [W.forRange, W.forEach]
  | succ n ih =>
    have hi : i < l.length := by omega
    unfold W.forRange
    rw [List.drop_eq_getElem_cons hi, List.take_succ_cons, W.forEach, ih (i + 1) (by omega)]
    simp [index, List.getElem?_eq_getElem hi, W.using]

theorem rt_array {w : Int → W Unit} {r : R Int} (h : ∀ v, RT (w v) r v) (l : List Int) (n : Nat) :
    RT (W.forRange 0 n fun idx => W.using (index l idx) w) (R.times n r) (l.take n) := by
  intro b hb
  have hok := (forRange_index_ok l n 0).1 hb.ok
  rcases hok.1 with hn | hn
  · subst hn
    obtain ⟨rfl, -⟩ := hb
    simp only [List.take_zero]
    exact Reads.pure _
  · rw [forRange_index_eq l n 0 hn] at hb
    have := RT.forEach (l := l.take n) (r := r) (f := id) (fun x _ => h x) b (by simpa using hb)
    have e : (l.take n).length = n := by simp; omega
    rw [e] at this
    simpa using this

theorem sized_array {w : Int → W Unit} {m} (h : ∀ v, Sized (w v) m) (l : List Int) (n i : Nat) :
    Sized (W.forRange i n fun idx => W.using (index l idx) w) (n * m) := by
  induction n generalizing i with
  | zero => exact (Sized.pure ()).of_eq (by simp)
  | succ n ih =>
    exact (Sized.bind (sized_using h) (ih (i + 1))).of_eq (by rw [Nat.succ_mul, Nat.add_comm])

theorem ok_array {w : Int → W Unit} {P : Int → Prop} (h : ∀ v, (w v).Ok ↔ P v) (l : List Int)
    (n : Nat) (hn : n ≠ 0) : (W.forRange 0 n fun idx => W.using (index l idx) w).Ok ↔
      n ≤ l.length ∧ ∀ x ∈ l.take n, P x := by
  rw [forRange_index_ok]
  simp [hn, h]

theorem emits_array {w : Int → W Unit} {l : List Int} {n : Nat} {b} (hl : l.length = n)
    (h : (W.forEach l w).Emits b) :
    (W.forRange 0 n fun idx => W.using (index l idx) w).Emits b := by
  rw [forRange_index_eq l n 0 (by omega)]
  simpa [← hl] using h

/-! ## Counted lists -/

theorem rt_list {α β} {l : List α} {body : α → W Unit} {r : R β} {f : α → β}
    (h : ∀ x ∈ l, RT (body x) r (f x)) :
    RT (W.forEach l body) (R.times (l.length : Int).toNat r) (l.map f) :=
  RT.forEach h

theorem rt_list_id {α} {l : List α} {body : α → W Unit} {r : R α}
    (h : ∀ x, RT (body x) r x) : RT (W.forEach l body) (R.times (l.length : Int).toNat r) l := by
  simpa using RT.forEach (f := id) (fun x (_ : x ∈ l) => h x)

theorem rt_list_throw {α β} {l : List α} {e e'} :
    RT (W.forEach l fun _ => W.throw e) (R.times (l.length : Int).toNat (R.throw e' : R β)) [] := by
  cases l with
  | nil => exact RT.pure _ _
  | cons x xs =>
    refine RT.of_not_ok fun h => ?_
    exact W.not_ok_throw _ (W.forEach_ok.1 h x (by simp))

theorem rt_list_null {α β} {l : List α} {body : α → W Unit} {e'} (hl : l = []) :
    RT (W.forEach l body) (R.times (l.length : Int).toNat (R.throw e' : R β)) [] := by
  subst hl; exact RT.pure _ _

theorem ok_list {α} {l : List α} {body : α → W Unit} {P : α → Prop} (h : ∀ v, (body v).Ok ↔ P v) :
    (W.forEach l body).Ok ↔ ∀ x ∈ l, P x := by
  rw [W.forEach_ok]; simp [h]

theorem ok_list_throw {α} {l : List α} {e} : (W.forEach l fun _ => W.throw e).Ok ↔ l = [] := by
  rw [W.forEach_ok]
  cases l with
  | nil => simp
  | cons x xs => exact iff_of_false (fun h => W.not_ok_throw _ (h x (by simp))) (by simp)

theorem sized_list_throw {α} {l : List α} {e} : Sized (W.forEach l fun _ => W.throw e) 0 := by
  cases l with
  | nil => exact Sized.pure _
  | cons x xs =>
    refine Sized.of_not_ok fun h => ?_
    exact W.not_ok_throw _ (W.forEach_ok.1 h x (by simp))

theorem ok_bind_iff {w : W Unit} {k : W Unit} {P Q : Prop} (h1 : w.Ok ↔ P) (h2 : k.Ok ↔ Q) :
    (w >>= fun _ => k).Ok ↔ P ∧ Q := by rw [W.ok_bind, h1, h2]

theorem local_throw_times {α} (e : PyErr) (n : Nat) : Local (R.times n (R.throw e : R α)) :=
  Local.times (Local.throw e) n

end Dis
