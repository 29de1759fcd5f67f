import Verif.Spec.Io
import Verif.Stream
import Verif.Proof.Num

/-!
# Streams: the trees at work (for C79)
-/

namespace Dis.Io

open Src

/-- How a call ends. -/
def ending : Except PyErr (Option Val) × St → Except PyErr Val × Streams
  | (.ok r, st) => (.ok (r.getD (.val .none)), st.io)
  | (.error e, st) => (.error e, st.io)

/-- The first element of a tuple, `t[0]`. -/
def first : Except PyErr (List Src.Val) → Except PyErr Src.Val
  | .ok (v :: _) => .ok v
  | .ok [] => .error .indexError
  | .error e => .error e

/-- The bytes one gets. -/
def got (k : Int) (s : InStream) : Bytes :=
  match (R.readRaw k s).1 with | .ok b => b | .error _ => []

theorem unpacks (O : World) (C : Call) (st : St) (h : st.locals = [(I.self, .val .inp)]) (fmt : List Nat) (k : Int) :
    eval modules O C (.index (.method (.name I.struct) I.unpack [.str fmt, .method (.attr (.name I.self) I.stream) I.read [.int k]]) (.int 0)) st
      = ((first (unpack fmt (got k st.io.inp))).map .val,
         ⟨[(I.self, .val .inp)], ⟨(R.readRaw k st.io.inp).2, st.io.out⟩⟩) := by
  obtain ⟨_, io⟩ := st
  obtain rfl : _ = _ := h
  simp only [eval, evalList]
  show M.bind (M.bind (fun st => (_, st)) _) _ _ = _
  simp only [M.bind, got, R.readRaw]
  generalize (if k < 0 then _ else _ : Bytes) = b
  rcases unpack fmt b with e | _ | ⟨v, l⟩ <;> rfl

theorem readFixed_got {α : Type} (k : Nat) (u : Bytes → Except PyErr α) (s : InStream) :
    R.readFixed k u s = (u (got k s), (R.readRaw k s).2) := rfl

theorem unpacking {α : Type} (O : World) (m : Ident) (fmt : List Nat) (k : Nat) (io : Streams) (n : Nat) (u : Bytes → Except PyErr α)
    (g : α → Src.Val) (hu : ∀ b, unpack fmt b = (u b).map fun a => [g a])
    (hm : find modules (some I.DataInputStream) m = some ⟨[], [.ret (.index (.method (.name I.struct) I.unpack
      [.str fmt, .method (.attr (.name I.self) I.stream) I.read [.int k]]) (.int 0))]⟩) :
    run modules O (n + 1) (some I.DataInputStream) m [] io = reads (fun v => .val (g v)) (R.readFixed k u) io := by
  rw [run, hm]
  show ending (M.bind (M.bind (eval modules O (run modules O n) _) _) _ ⟨[(I.self, .val .inp)], io⟩) = _
  simp only [M.bind, unpacks, reads, readFixed_got, hu]
  rcases u (got k io.inp) with e | a <;> rfl

/-- `return t(self.m'())`. -/
theorem converting {α : Type} (O : World) (m m' t : Ident) (io : Streams) (n : Nat) (g : α → Src.Val) (r : R α)
    (hr : ∀ io, run modules O (n + 1) (some I.DataInputStream) m' [] io = reads (fun v => .val (g v)) r io)
    (hc : ∀ a io, callName modules O (run modules O (n + 1)) t [.val (g a)] ⟨[(I.self, .val .inp)], io⟩ =
      (.ok (.val (g a)), ⟨[(I.self, .val .inp)], io⟩))
    (hm : find modules (some I.DataInputStream) m = some ⟨[], [.ret (.call t [.method (.name I.self) m' []])]⟩) :
    run modules O (n + 2) (some I.DataInputStream) m [] io = reads (fun v => .val (g v)) r io := by
  rw [run, hm]
  show ending (M.bind (M.bind (eval modules O (run modules O (n + 1)) _) _) _ ⟨[(I.self, .val .inp)], io⟩) = _
  have e : eval modules O (run modules O (n + 1)) (.call t [.method (.name I.self) m' []]) ⟨[(I.self, .val .inp)], io⟩ =
      M.bind (fun st => match run modules O (n + 1) (some I.DataInputStream) m' [] st.io with
        | (r, io) => (r, { st with io })) (fun v => callName modules O (run modules O (n + 1)) t [v])
        ⟨[(I.self, .val .inp)], io⟩ := by
    simp only [eval, evalList]
    show M.bind (M.bind (fun st => match run modules O (n + 1) (some I.DataInputStream) m' [] st.io with
        | (r, io) => (r, { st with io })) _) _ _ = _
    simp only [M.bind]
    rcases run modules O (n + 1) (some I.DataInputStream) m' [] io with ⟨_ | _, _⟩ <;> rfl
  simp only [M.bind, e, hr, reads]
  rcases r io.inp with ⟨_ | a, s⟩
  · rfl
  · simp only [Except.map, hc]
    rfl

theorem read_byte_runs (O : World) (n : Nat) (io : Streams) :
    run modules O (n + 1) (some I.DataInputStream) I.read_byte [] io = reads (fun v => .val (.int v)) read_byte io :=
  unpacking O _ [98] 1 io n (unpackS 1) .int (fun b => by rcases h : unpackS 1 b <;> simp [unpack, h, Except.map] <;> rfl) rfl

theorem read_unsigned_byte_runs (O : World) (n : Nat) (io : Streams) :
    run modules O (n + 1) (some I.DataInputStream) I.read_unsigned_byte [] io = reads (fun v => .val (.int v)) read_unsigned_byte io :=
  unpacking O _ [66] 1 io n (unpackU 1) .int (fun b => by rcases h : unpackU 1 b <;> simp [unpack, h, Except.map] <;> rfl) rfl

theorem read_short_runs (O : World) (n : Nat) (io : Streams) :
    run modules O (n + 1) (some I.DataInputStream) I.read_short [] io = reads (fun v => .val (.int v)) read_short io :=
  unpacking O _ [62, 104] 2 io n (unpackS 2) .int (fun b => by rcases h : unpackS 2 b <;> simp [unpack, h, Except.map] <;> rfl) rfl

theorem read_unsigned_short_runs (O : World) (n : Nat) (io : Streams) :
    run modules O (n + 1) (some I.DataInputStream) I.read_unsigned_short [] io = reads (fun v => .val (.int v)) read_unsigned_short io :=
  unpacking O _ [62, 72] 2 io n (unpackU 2) .int (fun b => by rcases h : unpackU 2 b <;> simp [unpack, h, Except.map] <;> rfl) rfl

theorem read_int_runs (O : World) (n : Nat) (io : Streams) :
    run modules O (n + 1) (some I.DataInputStream) I.read_int [] io = reads (fun v => .val (.int v)) read_int io :=
  unpacking O _ [62, 105] 4 io n (unpackS 4) .int (fun b => by rcases h : unpackS 4 b <;> simp [unpack, h, Except.map] <;> rfl) rfl

theorem read_unsigned_int_runs (O : World) (n : Nat) (io : Streams) :
    run modules O (n + 1) (some I.DataInputStream) I.read_unsigned_int [] io = reads (fun v => .val (.int v)) read_unsigned_int io :=
  unpacking O _ [62, 73] 4 io n (unpackU 4) .int (fun b => by rcases h : unpackU 4 b <;> simp [unpack, h, Except.map] <;> rfl) rfl

theorem read_long_runs (O : World) (n : Nat) (io : Streams) :
    run modules O (n + 1) (some I.DataInputStream) I.read_long [] io = reads (fun v => .val (.int v)) read_long io :=
  unpacking O _ [62, 113] 8 io n (unpackS 8) .int (fun b => by rcases h : unpackS 8 b <;> simp [unpack, h, Except.map] <;> rfl) rfl

theorem read_float_runs (O : World) (n : Nat) (io : Streams) :
    run modules O (n + 1) (some I.DataInputStream) I.read_float [] io = reads (fun v => .val (.float v)) read_float io :=
  unpacking O _ [62, 102] 4 io n (unpackF) .float (fun b => by rcases h : unpackF b <;> simp [unpack, h, Except.map] <;> rfl) rfl

theorem read_double_runs (O : World) (n : Nat) (io : Streams) :
    run modules O (n + 1) (some I.DataInputStream) I.read_double [] io = reads (fun v => .val (.float v)) read_double io :=
  unpacking O _ [62, 100] 8 io n (unpackD) .float (fun b => by rcases h : unpackD b <;> simp [unpack, h, Except.map] <;> rfl) rfl

theorem read_float32_runs (O : World) (n : Nat) (io : Streams) :
    run modules O (n + 2) (some I.DataInputStream) I.read_float32 [] io = reads (fun v => .val (.float v)) read_float32 io :=
  converting O _ _ _ io n .float _ (read_float_runs O n) (fun _ _ => rfl) rfl

theorem read_float64_runs (O : World) (n : Nat) (io : Streams) :
    run modules O (n + 2) (some I.DataInputStream) I.read_float64 [] io = reads (fun v => .val (.float v)) read_float64 io :=
  converting O _ _ _ io n .float _ (read_double_runs O n) (fun _ _ => rfl) rfl

theorem read_int8_runs (O : World) (n : Nat) (io : Streams) :
    run modules O (n + 2) (some I.DataInputStream) I.read_int8 [] io = reads (fun v => .val (.int v)) read_int8 io :=
  converting O _ _ _ io n .int _ (read_byte_runs O n) (fun _ _ => rfl) rfl

theorem read_int16_runs (O : World) (n : Nat) (io : Streams) :
    run modules O (n + 2) (some I.DataInputStream) I.read_int16 [] io = reads (fun v => .val (.int v)) read_int16 io :=
  converting O _ _ _ io n .int _ (read_short_runs O n) (fun _ _ => rfl) rfl

theorem read_int32_runs (O : World) (n : Nat) (io : Streams) :
    run modules O (n + 2) (some I.DataInputStream) I.read_int32 [] io = reads (fun v => .val (.int v)) read_int32 io :=
  converting O _ _ _ io n .int _ (read_int_runs O n) (fun _ _ => rfl) rfl

theorem read_int64_runs (O : World) (n : Nat) (io : Streams) :
    run modules O (n + 2) (some I.DataInputStream) I.read_int64 [] io = reads (fun v => .val (.int v)) read_int64 io :=
  converting O _ _ _ io n .int _ (read_long_runs O n) (fun _ _ => rfl) rfl

theorem read_uint8_runs (O : World) (n : Nat) (io : Streams) :
    run modules O (n + 2) (some I.DataInputStream) I.read_uint8 [] io = reads (fun v => .val (.int v)) read_uint8 io :=
  converting O _ _ _ io n .int _ (read_unsigned_byte_runs O n) (fun _ _ => rfl) rfl

theorem read_uint16_runs (O : World) (n : Nat) (io : Streams) :
    run modules O (n + 2) (some I.DataInputStream) I.read_uint16 [] io = reads (fun v => .val (.int v)) read_uint16 io :=
  converting O _ _ _ io n .int _ (read_unsigned_short_runs O n) (fun _ _ => rfl) rfl

theorem read_uint32_runs (O : World) (n : Nat) (io : Streams) :
    run modules O (n + 2) (some I.DataInputStream) I.read_uint32 [] io = reads (fun v => .val (.int v)) read_uint32 io :=
  converting O _ _ _ io n .int _ (read_unsigned_int_runs O n) (fun _ _ => rfl) rfl

theorem read_uint64_runs (O : World) (n : Nat) (io : Streams) :
    run modules O (n + 2) (some I.DataInputStream) I.read_uint64 [] io = reads (fun v => .val (.int v)) read_uint64 io :=
  converting O _ _ _ io n .int _ (read_long_runs O n) (fun _ _ => rfl) rfl

/-- `self.stream.write(struct.pack(fmt, val))`. -/
theorem packing (O : World) (m : Ident) (fmt : List Nat) (v : Val) (io : Streams) (n : Nat)
    (hm : find modules (some I.DataOutputStream) m = some ⟨[I.val], [.expr (.method (.attr (.name I.self) I.stream) I.write
      [.method (.name I.struct) I.pack [.str fmt, .name I.val]])]⟩) :
    run modules O (n + 1) (some I.DataOutputStream) m [v] io = writes (W.writeFixed (pack fmt v)) io := by
  rw [run, hm]
  show ending (M.bind (M.bind (eval modules O (run modules O n) _) _) _ ⟨put I.val v [(I.self, .val .out)], io⟩) = _
  generalize run modules O n = C
  have e : eval modules O C (.method (.attr (.name I.self) I.stream) I.write
      [.method (.name I.struct) I.pack [.str fmt, .name I.val]]) ⟨put I.val v [(I.self, .val .out)], io⟩ =
      match pack fmt v with
      | .ok b => (.ok (.val (.int b.length)), ⟨put I.val v [(I.self, .val .out)], ⟨io.inp, io.out ++ b⟩⟩)
      | .error e => (.error e, ⟨put I.val v [(I.self, .val .out)], io⟩) := by
    simp only [eval, evalList]
    show M.bind (M.bind (fun st => (_, st)) _) _ _ = _
    simp only [M.bind]
    rcases pack fmt v <;> rfl
  simp only [M.bind, e]
  rcases pack fmt v with _ | _
  · simp only [writes, W.writeFixed, W.ofExcept, Bind.bind, W.bind, List.append_nil]
    rfl
  · rfl

theorem write_byte_runs (O : World) (n : Nat) (v : Src.Val) (io : Streams) :
    run modules O (n + 1) (some I.DataOutputStream) I.write_byte [.val v] io = writes (packInt write_byte v) io := by
  rw [packing O _ [98] _ io n rfl]
  cases v <;> rfl

theorem write_unsigned_byte_runs (O : World) (n : Nat) (v : Src.Val) (io : Streams) :
    run modules O (n + 1) (some I.DataOutputStream) I.write_unsigned_byte [.val v] io = writes (packInt write_unsigned_byte v) io := by
  rw [packing O _ [66] _ io n rfl]
  cases v <;> rfl

theorem write_short_runs (O : World) (n : Nat) (v : Src.Val) (io : Streams) :
    run modules O (n + 1) (some I.DataOutputStream) I.write_short [.val v] io = writes (packInt write_short v) io := by
  rw [packing O _ [62, 104] _ io n rfl]
  cases v <;> rfl

theorem write_unsigned_short_runs (O : World) (n : Nat) (v : Src.Val) (io : Streams) :
    run modules O (n + 1) (some I.DataOutputStream) I.write_unsigned_short [.val v] io = writes (packInt write_unsigned_short v) io := by
  rw [packing O _ [62, 72] _ io n rfl]
  cases v <;> rfl

theorem write_int_runs (O : World) (n : Nat) (v : Src.Val) (io : Streams) :
    run modules O (n + 1) (some I.DataOutputStream) I.write_int [.val v] io = writes (packInt write_int v) io := by
  rw [packing O _ [62, 105] _ io n rfl]
  cases v <;> rfl

theorem write_unsigned_int_runs (O : World) (n : Nat) (v : Src.Val) (io : Streams) :
    run modules O (n + 1) (some I.DataOutputStream) I.write_unsigned_int [.val v] io = writes (packInt write_unsigned_int v) io := by
  rw [packing O _ [62, 73] _ io n rfl]
  cases v <;> rfl

theorem write_long_runs (O : World) (n : Nat) (v : Src.Val) (io : Streams) :
    run modules O (n + 1) (some I.DataOutputStream) I.write_long [.val v] io = writes (packInt write_long v) io := by
  rw [packing O _ [62, 113] _ io n rfl]
  cases v <;> rfl

theorem write_uint64_runs (O : World) (n : Nat) (v : Src.Val) (io : Streams) :
    run modules O (n + 1) (some I.DataOutputStream) I.write_uint64 [.val v] io = writes (packInt write_uint64 v) io := by
  rw [packing O _ [62, 81] _ io n rfl]
  cases v <;> rfl

theorem real_float (p : F64 → Except PyErr Bytes) (v : Src.Val) :
    W.writeFixed (real p (.val v)) = packFloat (fun x => W.writeFixed (p x)) v := by
  cases v <;> simp only [real, packFloat]
  case int i => generalize F64.ofInt i = z; cases z <;> rfl
  case bool b => generalize F64.ofInt b.toInt = z; cases z <;> rfl
  all_goals rfl

theorem write_float_runs (O : World) (n : Nat) (v : Src.Val) (io : Streams) :
    run modules O (n + 1) (some I.DataOutputStream) I.write_float [.val v] io = writes (packFloat write_float v) io := by
  rw [packing O _ [62, 102] _ io n rfl, show pack [62, 102] (.val v) = real packF (.val v) by simp only [pack], real_float]
  rfl

theorem write_double_runs (O : World) (n : Nat) (v : Src.Val) (io : Streams) :
    run modules O (n + 1) (some I.DataOutputStream) I.write_double [.val v] io = writes (packFloat write_double v) io := by
  rw [packing O _ [62, 100] _ io n rfl, show pack [62, 100] (.val v) = real packD (.val v) by simp only [pack], real_float]
  rfl

/-- `self.m'(val)`. -/
theorem passing (O : World) (m m' : Ident) (v : Val) (io : Streams) (n : Nat) (w : W Unit)
    (hr : run modules O (n + 1) (some I.DataOutputStream) m' [v] io = writes w io)
    (hm : find modules (some I.DataOutputStream) m = some ⟨[I.val], [.expr (.method (.name I.self) m' [.name I.val])]⟩) :
    run modules O (n + 2) (some I.DataOutputStream) m [v] io = writes w io := by
  rw [run, hm]
  show ending (M.bind (M.bind (eval modules O (run modules O (n + 1)) _) _) _ ⟨put I.val v [(I.self, .val .out)], io⟩) = _
  have e : eval modules O (run modules O (n + 1)) (.method (.name I.self) m' [.name I.val]) ⟨put I.val v [(I.self, .val .out)], io⟩ =
      match run modules O (n + 1) (some I.DataOutputStream) m' [v] io with
      | (r, io) => (r, ⟨put I.val v [(I.self, .val .out)], io⟩) := by
    simp only [eval, evalList]
    rfl
  simp only [M.bind, e, hr, writes]
  rcases w.res with _ | _ <;> rfl

theorem write_float32_runs (O : World) (n : Nat) (v : Src.Val) (io : Streams) :
    run modules O (n + 2) (some I.DataOutputStream) I.write_float32 [.val v] io = writes (packFloat write_float32 v) io :=
  passing O _ _ _ io n _ (write_float_runs O n v io) rfl

theorem write_float64_runs (O : World) (n : Nat) (v : Src.Val) (io : Streams) :
    run modules O (n + 2) (some I.DataOutputStream) I.write_float64 [.val v] io = writes (packFloat write_float64 v) io :=
  passing O _ _ _ io n _ (write_double_runs O n v io) rfl

theorem write_int8_runs (O : World) (n : Nat) (v : Src.Val) (io : Streams) :
    run modules O (n + 2) (some I.DataOutputStream) I.write_int8 [.val v] io = writes (packInt write_int8 v) io :=
  passing O _ _ _ io n _ (write_byte_runs O n v io) rfl

theorem write_int16_runs (O : World) (n : Nat) (v : Src.Val) (io : Streams) :
    run modules O (n + 2) (some I.DataOutputStream) I.write_int16 [.val v] io = writes (packInt write_int16 v) io :=
  passing O _ _ _ io n _ (write_short_runs O n v io) rfl

theorem write_int32_runs (O : World) (n : Nat) (v : Src.Val) (io : Streams) :
    run modules O (n + 2) (some I.DataOutputStream) I.write_int32 [.val v] io = writes (packInt write_int32 v) io :=
  passing O _ _ _ io n _ (write_int_runs O n v io) rfl

theorem write_int64_runs (O : World) (n : Nat) (v : Src.Val) (io : Streams) :
    run modules O (n + 2) (some I.DataOutputStream) I.write_int64 [.val v] io = writes (packInt write_int64 v) io :=
  passing O _ _ _ io n _ (write_long_runs O n v io) rfl

theorem write_uint8_runs (O : World) (n : Nat) (v : Src.Val) (io : Streams) :
    run modules O (n + 2) (some I.DataOutputStream) I.write_uint8 [.val v] io = writes (packInt write_uint8 v) io :=
  passing O _ _ _ io n _ (write_unsigned_byte_runs O n v io) rfl

theorem write_uint16_runs (O : World) (n : Nat) (v : Src.Val) (io : Streams) :
    run modules O (n + 2) (some I.DataOutputStream) I.write_uint16 [.val v] io = writes (packInt write_uint16 v) io :=
  passing O _ _ _ io n _ (write_unsigned_short_runs O n v io) rfl

theorem write_uint32_runs (O : World) (n : Nat) (v : Src.Val) (io : Streams) :
    run modules O (n + 2) (some I.DataOutputStream) I.write_uint32 [.val v] io = writes (packInt write_uint32 v) io :=
  passing O _ _ _ io n _ (write_unsigned_int_runs O n v io) rfl

/-! ## Booleans, characters, strings and bytes -/

theorem read_boolean_runs (O : World) (n : Nat) (io : Streams) :
    run modules O (n + 1) (some I.DataInputStream) I.read_boolean [] io = reads (fun v => .val (.bool v)) read_boolean io :=
  unpacking O _ [63] 1 io n _ .bool (fun b => by rcases h : unpackU 1 b <;> simp [unpack, h, Except.map] <;> rfl) rfl

theorem unpackU_range (n : Nat) (b : Bytes) (v : Int) (h : unpackU n b = .ok v) : 0 ≤ v ∧ v < (256 ^ n : Nat) := by
  unfold unpackU at h
  split at h
  case isTrue hl =>
    injection h with h
    have := beNat_lt b
    rw [hl] at this
    omega
  case isFalse => cases h

theorem chr_runs (O : World) (C : Call) (st : St) (h : st.locals = [(I.self, .val .inp)]) (v : Int) (h1 : 0 ≤ v)
    (h2 : v < 0x110000) : callName modules O C I.chr [.val (.int v)] st = (.ok (char v), st) := by
  obtain ⟨_, io⟩ := st
  obtain rfl : _ = _ := h
  show (if 0 ≤ v ∧ v < 0x110000 then pure (.str [v.toNat]) else M.throw .valueError : M Val) _ = _
  rw [if_pos ⟨h1, h2⟩]
  rfl

theorem read_char_runs (O : World) (n : Nat) (io : Streams) :
    run modules O (n + 1) (some I.DataInputStream) I.read_char [] io = reads char read_char io := by
  rw [run]
  show ending (M.bind (M.bind (eval modules O (run modules O n) _) _) _ ⟨[(I.self, .val .inp)], io⟩) = _
  generalize run modules O n = C
  rw [eval, evalList]
  show ending (M.bind (M.bind (M.bind (M.bind (eval modules O C _) _) _) _) _ ⟨[(I.self, .val .inp)], io⟩) = _
  simp only [M.bind, unpacks, reads, read_char, readFixed_got, unpack]
  have hr := unpackU_range 2 (got 2 io.inp)
  show _ = (Except.map char (unpackU 2 (got 2 io.inp)), (⟨(R.readRaw 2 io.inp).snd, io.out⟩ : Streams))
  revert hr
  rcases unpackU 2 (got 2 io.inp) with e | v
  · intro _; rfl
  · intro hr
    obtain ⟨h1, h2⟩ := hr v rfl
    exact (congrArg (fun r => ending (M.bind (M.bind (fun _ => r) fun a => pure (some a)) (fun a => match a with
      | some v => pure (some v)
      | none => execs modules O C []) ⟨[(I.self, .val .inp)], io⟩)) (chr_runs O C _ rfl v h1 (by omega))).trans rfl

/-- `return char8(self.read_char())`. -/
theorem read_char8_runs (O : World) (n : Nat) (io : Streams) :
    run modules O (n + 2) (some I.DataInputStream) I.read_char8 [] io = reads char read_char8 io := by
  have hm : find modules (some I.DataInputStream) I.read_char8 = some DataInputStream.read_char8 := rfl
  have hr := read_char_runs O n
  rw [run, hm]
  revert hr
  generalize run modules O (n + 1) = C
  intro hr
  show ending (M.bind (M.bind (eval modules O C (.call I.char8 [.method (.name I.self) I.read_char []])) _) _
    ⟨[(I.self, .val .inp)], io⟩) = _
  have e : eval modules O C (.call I.char8 [.method (.name I.self) I.read_char []]) ⟨[(I.self, .val .inp)], io⟩ =
      M.bind (fun st => match C (some I.DataInputStream) I.read_char [] st.io with
        | (r, io) => (r, { st with io })) (fun v => callName modules O C I.char8 [v])
        ⟨[(I.self, .val .inp)], io⟩ := by
    simp only [eval, evalList]
    show M.bind (M.bind (fun st => match C (some I.DataInputStream) I.read_char [] st.io with
        | (r, io) => (r, { st with io })) _) _ _ = _
    simp only [M.bind]
    rcases C (some I.DataInputStream) I.read_char [] io with ⟨_ | _, _⟩ <;> rfl
  simp only [M.bind, e, hr, reads, read_char8]
  rcases read_char io.inp with ⟨_ | a, s⟩ <;> rfl

theorem read_utf_runs (O : World) (n : Nat) (io : Streams) :
    run modules O (n + 1) (some I.DataInputStream) I.read_utf [] io = reads (fun b => .val (.bytes b)) read_utf io := by
  have hm : find modules (some I.DataInputStream) I.read_utf = some DataInputStream.read_utf := rfl
  rw [run, hm]
  show ending (M.bind (M.bind (eval modules O (run modules O n) (.index (.method (.name I.struct) I.unpack
    [.str [62, 72], .method (.attr (.name I.self) I.stream) I.read [.int 2]]) (.int 0))) _) _ ⟨[(I.self, .val .inp)], io⟩) = _
  generalize run modules O n = C
  have h : read_utf = R.bind (R.readFixed 2 (unpackU 2)) R.readRaw := rfl
  simp only [M.bind, unpacks, reads, h, R.bind, readFixed_got, unpack]
  rw [show ((2 : Nat) : Int) = 2 from rfl]
  rcases unpackU 2 (got 2 io.inp) with e | v <;> rfl

theorem read_bytes_runs (O : World) (n : Nat) (v : Src.Val) (io : Streams) :
    run modules O (n + 1) (some I.DataInputStream) I.read_bytes [.val v] io = reads .val (readerBytes [v]) io := by
  have hm : find modules (some I.DataInputStream) I.read_bytes = some DataInputStream.read_bytes := rfl
  rw [run, hm]
  show ending (M.bind (M.bind (eval modules O (run modules O n) _) _) _ ⟨put I.n (.val v) [(I.self, .val .inp)], io⟩) = _
  generalize run modules O n = C
  cases v <;> rfl

theorem write_boolean_runs (O : World) (n : Nat) (v : Val) (io : Streams) :
    run modules O (n + 1) (some I.DataOutputStream) I.write_boolean [v] io = writes (write_boolean (truth v)) io := rfl

theorem ord_runs (O : World) (C : Call) (v : Val) (io : Streams) :
    eval modules O C (.call I.ord [.name I.val]) ⟨put I.val v [(I.self, .val .out)], io⟩ =
      (match v with | .str [c] => .ok (.val (.int (c : Int))) | _ => .error .typeError,
        ⟨put I.val v [(I.self, .val .out)], io⟩) := by
  rw [eval]
  rcases v with _ | (_ | ⟨c, _ | _⟩) | _ | _ | _ | _ | _ | _ <;> rfl

theorem step {α β : Type} {p : M α} {k : α → M β} {st st' : St} {a : α} (h : p st = (.ok a, st')) :
    M.bind p k st = k a st' := by
  rw [M.bind, h]

theorem stop {α β : Type} {p : M α} {k : α → M β} {st st' : St} {e : PyErr} (h : p st = (.error e, st')) :
    M.bind p k st = (.error e, st') := by
  rw [M.bind, h]

theorem eval_method (O : World) (C : Call) (e : Expr) (m : Ident) (args : List Expr) :
    eval modules O C (.method e m args) =
      M.bind (eval modules O C e) fun v => M.bind (evalList modules O C args) fun vs => callMethod O C e v m vs := by
  rw [eval]; rfl

theorem eval_one {O : World} {C : Call} {a : Expr} {st st' : St} {w : Val} (h : eval modules O C a st = (.ok w, st')) :
    evalList modules O C [a] st = (.ok [w], st') := by
  rw [evalList, evalList]
  exact step h

/-- The local variables of a method of the output stream. -/
abbrev env (x : Ident) (v : Val) : List (Ident × Val) := put x v [(I.self, .val .out)]

/-- `self.stream.write(struct.pack(fmt, a))`, where `a` has the value `w`. -/
theorem packs (O : World) (C : Call) (l : List (Ident × Val)) (io : Streams) (fmt : List Nat) (a : Expr) (w : Val)
    (hs : look I.self l = some (.val .out)) (ht : look I.struct l = none)
    (ha : eval modules O C a ⟨l, io⟩ = (.ok w, ⟨l, io⟩)) :
    eval modules O C (.method (.attr (.name I.self) I.stream) I.write [.method (.name I.struct) I.pack [.str fmt, a]])
        ⟨l, io⟩ =
      match pack fmt w with
      | .ok b => (.ok (.val (.int b.length)), ⟨l, ⟨io.inp, io.out ++ b⟩⟩)
      | .error e => (.error e, ⟨l, io⟩) := by
  have h0 : eval modules O C (.name I.self) ⟨l, io⟩ = (.ok (.val .out), ⟨l, io⟩) := by
    rw [eval]
    unfold global
    simp only [Bind.bind, M.bind, M.var?, hs]
    rfl
  have h1 : eval modules O C (.attr (.name I.self) I.stream) ⟨l, io⟩ = (.ok .output, ⟨l, io⟩) := by
    rw [eval]
    exact step h0
  have h2 : eval modules O C (.name I.struct) ⟨l, io⟩ = (.ok (.module I.struct), ⟨l, io⟩) := by
    rw [eval]
    unfold global
    simp only [Bind.bind, M.bind, M.var?, ht]
    rfl
  have h3 : eval modules O C (.method (.name I.struct) I.pack [.str fmt, a]) ⟨l, io⟩ =
      ((pack fmt w).map (.val ∘ .bytes), ⟨l, io⟩) := by
    rw [eval_method, step h2, step (a := [.str fmt, w]) (st' := ⟨l, io⟩)]
    · show M.bind (M.of (pack fmt w)) _ _ = _
      simp only [M.bind, M.of]
      rcases pack fmt w <;> rfl
    · rw [evalList, eval]
      exact step (eval_one ha)
  rw [eval_method, step h1]
  revert h3
  rcases pack fmt w with e | b <;> intro h3
  · refine stop ?_
    rw [evalList, evalList]
    exact stop h3
  · exact step (eval_one h3)

/-- A statement that writes, alone in its method. -/
theorem ending_expr (O : World) (C : Call) (e : Expr) (l : List (Ident × Val)) (io : Streams) (w : W Unit) (v : Val)
    (h : eval modules O C e ⟨l, io⟩ = match w.res with
      | .ok _ => (.ok v, ⟨l, ⟨io.inp, io.out ++ w.out⟩⟩)
      | .error x => (.error x, ⟨l, ⟨io.inp, io.out ++ w.out⟩⟩)) :
    ending (execs modules O C [.expr e] ⟨l, io⟩) = writes w io := by
  rw [execs, exec]
  show ending (M.bind (M.bind (eval modules O C e) _) _ _) = _
  rcases hw : w.res with x | x <;> rw [hw] at h
  · simp only [M.bind, h, writes, hw]; rfl
  · simp only [M.bind, h, writes, hw]; rfl

theorem writeFixed_error {x : PyErr} : W.writeFixed (.error x) = ⟨[], .error x⟩ := rfl

theorem writeFixed_ok {b : Bytes} : W.writeFixed (.ok b) = ⟨b, .ok ()⟩ := rfl

/-- A method of the output stream with one parameter. -/
theorem calling (O : World) (m x : Ident) (v : Val) (io : Streams) (n : Nat) (body : List Stmt)
    (hm : find modules (some I.DataOutputStream) m = some ⟨[x], body⟩) :
    run modules O (n + 1) (some I.DataOutputStream) m [v] io =
      ending (execs modules O (run modules O n) body ⟨env x v, io⟩) := by
  rw [run, hm]
  rfl

theorem pack_H (v : Val) : pack [62, 72] v = integer (packU 2) v := rfl

theorem integer_int (p : Int → Except PyErr Bytes) (v : Int) : integer p (.val (.int v)) = p v := rfl

theorem character_str (w : Int → W Unit) (c : Nat) : character w (.str [c]) = w c := rfl

theorem write_char_eq (c : Int) : write_char c = W.writeFixed (packU 2 c) := rfl

theorem write_char8_eq (c : Int) : write_char8 c = write_byte c := rfl

theorem write_utf_eq (b : Bytes) : write_utf b = W.bind (W.writeFixed (packU 2 b.length)) fun _ => W.emit b := rfl

theorem packInt_int (w : Int → W Unit) (v : Int) : packInt w (.int v) = w v := rfl

theorem write_char_runs (O : World) (n : Nat) (v : Val) (io : Streams) :
    run modules O (n + 1) (some I.DataOutputStream) I.write_char [v] io = writes (character write_char v) io := by
  rw [calling O _ _ v io n _ (show find modules (some I.DataOutputStream) I.write_char = some ⟨[I.val], [.expr
    (.method (.attr (.name I.self) I.stream) I.write [.method (.name I.struct) I.pack [.str [62, 72], .call I.ord [.name I.val]]])]⟩
    from rfl)]
  generalize run modules O n = C
  rcases v with _ | (_ | ⟨c, _ | _⟩) | _ | _ | _ | _ | _ | _
  case str.cons.nil =>
    rw [character_str, write_char_eq]
    refine ending_expr O C _ _ io _ (.val (.int (W.writeFixed (packU 2 c)).out.length)) ?_
    rw [packs O C _ io [62, 72] _ (.val (.int (c : Int))) rfl rfl (ord_runs O C _ io), pack_H, integer_int]
    generalize packU 2 c = p
    cases p <;> simp only [writeFixed_error, writeFixed_ok, List.append_nil]
  all_goals
    simp only [character, W.throw, writes, List.append_nil]
    rfl

theorem write_char8_runs (O : World) (n : Nat) (v : Val) (io : Streams) :
    run modules O (n + 2) (some I.DataOutputStream) I.write_char8 [v] io = writes (character write_char8 v) io := by
  have hr := write_byte_runs O n
  rw [calling O _ _ v io (n + 1) _ (show find modules (some I.DataOutputStream) I.write_char8 = some ⟨[I.val], [.expr
    (.method (.name I.self) I.write_byte [.call I.ord [.name I.val]])]⟩ from rfl)]
  revert hr
  generalize run modules O (n + 1) = C
  intro hr
  rcases v with _ | (_ | ⟨c, _ | _⟩) | _ | _ | _ | _ | _ | _
  case str.cons.nil =>
    rw [character_str, write_char8_eq]
    refine ending_expr O C _ _ io _ (.val .none) ?_
    rw [eval_method, step (a := .val .out) (st' := ⟨env I.val (.str [c]), io⟩) (by rw [eval]; rfl),
      step (eval_one (ord_runs O C _ io))]
    show (match C (some I.DataOutputStream) I.write_byte [.val (.int (c : Int))] io with | (r, io) => (r, _)) = _
    rw [hr, packInt_int, writes]
    generalize write_byte c = w
    rcases w with ⟨o, _ | _⟩ <;> rfl
  all_goals
    simp only [character, W.throw, writes, List.append_nil]
    rfl

theorem ending_two (O : World) (C : Call) (e f : Expr) (l : List (Ident × Val)) (io io' io'' : Streams) (v w : Val)
    (he : eval modules O C e ⟨l, io⟩ = (.ok v, ⟨l, io'⟩)) (hf : eval modules O C f ⟨l, io'⟩ = (.ok w, ⟨l, io''⟩)) :
    ending (execs modules O C [.expr e, .expr f] ⟨l, io⟩) = (.ok (.val .none), io'') := by
  rw [execs, exec, execs, exec]
  show ending (M.bind (M.bind (eval modules O C e) _) _ _) = _
  simp only [M.bind, he]
  show ending (M.bind (M.bind (eval modules O C f) _) _ _) = _
  simp only [M.bind, hf]
  rfl

theorem ending_first (O : World) (C : Call) (e f : Expr) (l : List (Ident × Val)) (io : Streams) (x : PyErr)
    (he : eval modules O C e ⟨l, io⟩ = (.error x, ⟨l, io⟩)) :
    ending (execs modules O C [.expr e, .expr f] ⟨l, io⟩) = (.error x, io) := by
  rw [execs, exec]
  show ending (M.bind (M.bind (eval modules O C e) _) _ _) = _
  simp only [M.bind, he]
  rfl

theorem sending (O : World) (C : Call) (b : Bytes) (io : Streams) :
    eval modules O C (.method (.attr (.name I.self) I.stream) I.write [.name I.string]) ⟨env I.string (.val (.bytes b)), io⟩ =
      (.ok (.val (.int b.length)), ⟨env I.string (.val (.bytes b)), ⟨io.inp, io.out ++ b⟩⟩) := by
  rw [eval]; rfl

theorem counting (O : World) (C : Call) (b : Bytes) (io : Streams) :
    eval modules O C (.call I.len [.name I.string]) ⟨env I.string (.val (.bytes b)), io⟩ =
      (.ok (.val (.int b.length)), ⟨env I.string (.val (.bytes b)), io⟩) := by
  rw [eval]; rfl

theorem write_utf_runs (O : World) (n : Nat) (b : Bytes) (io : Streams) :
    run modules O (n + 1) (some I.DataOutputStream) I.write_utf [.val (.bytes b)] io = writes (write_utf b) io := by
  rw [calling O _ _ _ io n _ (show find modules (some I.DataOutputStream) I.write_utf = some ⟨[I.string], [
    .expr (.method (.attr (.name I.self) I.stream) I.write [.method (.name I.struct) I.pack [.str [62, 72],
      .call I.len [.name I.string]]]),
    .expr (.method (.attr (.name I.self) I.stream) I.write [.name I.string])]⟩ from rfl)]
  generalize run modules O n = C
  have h := packs O C _ io [62, 72] _ _ rfl rfl (counting O C b io)
  rw [pack_H, integer_int] at h
  rw [write_utf_eq]
  revert h
  generalize packU 2 b.length = p
  rcases p with e | p <;> intro h
  · rw [ending_first O C _ _ _ _ _ h]
    simp only [writeFixed_error, W.bind, writes, List.append_nil, Except.map]
  · rw [ending_two O C _ _ _ _ _ _ _ _ h (sending O C b _)]
    simp only [writeFixed_ok, W.bind, writes, W.emit, ← List.append_assoc, Except.map]

theorem write_bytes_runs (O : World) (n : Nat) (v : Src.Val) (io : Streams) :
    run modules O (n + 1) (some I.DataOutputStream) I.write_bytes [.val v] io = writes (packBytes v) io := by
  cases v <;> simp only [writes, packBytes, W.throw, List.append_nil] <;> rfl

end Dis.Io
