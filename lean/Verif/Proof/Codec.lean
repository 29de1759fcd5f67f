import Verif.Spec.Codec
import Verif.Proof.Layout

/-! # Verified codecs -/

namespace Dis

/-- The slots, when they can be written, take `n` bytes. -/
def SizedL (sl : List Slot) (n : Nat) : Prop := Sized (Slot.stream sl) n

theorem SizedL.of {w : W Unit} {sl : List Slot} {n} (h1 : Lay w sl) (h2 : Sized w n) : SizedL sl n := by
  unfold SizedL; rw [← h1]; exact h2

theorem SizedL.nil : SizedL [].flatten 0 := Sized.pure ()

theorem SizedL.append {a : List Slot} {l : List (List Slot)} {n m} (h1 : SizedL a n)
    (h2 : SizedL l.flatten m) : SizedL (a :: l).flatten (n + m) := by
  unfold SizedL
  rw [List.flatten_cons, Slot.stream_append]
  exact Sized.bind h1 h2

theorem SizedL.of_eq {sl : List Slot} {n m} (h : SizedL sl n) (e : n = m) : SizedL sl m := e ▸ h

theorem SizedL.attr {α} {k : α → Slot} {n} (h : ∀ v, SizedL [k v] n) {o : Option α} :
    SizedL [Slot.orFail .attributeError k o] n := by
  cases o with
  | none => exact Sized.of_not_ok (W.not_ok_throw _)
  | some v => exact h v

theorem SizedL.need {k : Int → Slot} {n} (h : ∀ v, SizedL [k v] n) {o : Option Int} :
    SizedL [Slot.orFail .structError k o] n := by
  cases o with
  | none => exact Sized.of_not_ok (W.not_ok_throw _)
  | some v => exact h v

theorem SizedL.asInt {α} {k : Int → Slot} {n} (h : ∀ v, SizedL [k v] n) {o : IntOr α} :
    SizedL [Slot.orFail .structError k o.int?] n := by
  cases o with
  | int v => exact h v
  | obj v => exact Sized.of_not_ok (W.not_ok_throw _)

/-- The slots take at most `n` bytes, also when one of them cannot be written. -/
def WidthL (sl : List Slot) (n : Nat) : Prop := (sl.map Slot.width).sum ≤ n

theorem WidthL.nil : WidthL [].flatten 0 := Nat.le_refl _

theorem WidthL.one {s : Slot} : WidthL [s] s.width := by simp [WidthL]

theorem WidthL.append {a : List Slot} {l : List (List Slot)} {n m} (h1 : WidthL a n)
    (h2 : WidthL l.flatten m) : WidthL (a :: l).flatten (n + m) := by
  unfold WidthL at *
  simp only [List.flatten_cons, List.map_append, List.sum_append]
  omega

theorem WidthL.of_eq {sl : List Slot} {n m} (h : WidthL sl n) (e : n = m) : WidthL sl m := e ▸ h

theorem WidthL.fail {α} {k : α → Slot} {e n} {o : Option α} (h : ∀ v, (k v).width = n) :
    WidthL [Slot.orFail e k o] n := by
  cases o with
  | none => simp [WidthL, Slot.orFail, Slot.width]
  | some v => simp [WidthL, Slot.orFail, h]

theorem WidthL.range {α} {k : α → Slot} {e} {f : Nat → Option α} {n m : Nat}
    (h : ∀ v, (k v).width = m) :
    WidthL ((List.range n).map fun i => Slot.orFail e k (f i)) (n * m) := by
  unfold WidthL
  rw [List.map_map]
  have : ∀ l : List Nat, (l.map (Slot.width ∘ fun i => Slot.orFail e k (f i))).sum ≤ l.length * m := by
    intro l
    induction l with
    | nil => simp
    | cons i l ih =>
      have := WidthL.fail (e := e) (o := f i) h
      simp only [WidthL, List.map_cons, List.map_nil, List.sum_cons, List.sum_nil] at this
      simp only [List.map_cons, List.sum_cons, Function.comp, List.length_cons, Nat.add_mul]
      omega
  simpa using this (List.range n)

theorem Slot.stream_out_le (l : List Slot) : (Slot.stream l).out.length ≤ (l.map Slot.width).sum := by
  induction l with
  | nil => simp [Slot.stream]
  | cons s l ih =>
    simp only [Slot.stream]
    cases hs : s.encode with
    | error e => simp
    | ok x => simp [Slot.encode_width hs]; omega

/-- The count field is where it claims to be. -/
def CountField.At {Obj : Type} (c : CountField Obj) (sl : Obj → List Slot) (o : Obj) : Prop :=
  ∃ pre post s, sl o = pre ++ s :: post ∧ SizedL pre c.offset ∧ WidthL pre c.offset ∧
    (∀ b, s.encode = .ok b → b = digits c.width (c.scale * c.len o : Nat)) ∧
    (s.encode = .error .structError ↔ c.max < c.scale * c.len o) ∧
    (∀ e, s.encode = .error e → e = .structError) ∧ c.max < 256 ^ c.width

theorem CountField.At.unsigned {Obj : Type} {c : CountField Obj} {sl : Obj → List Slot} {o : Obj}
    {pre post : List Slot} (h : sl o = pre ++ .uint c.width (c.scale * c.len o : Nat) :: post)
    (hp : SizedL pre c.offset) (hm : 256 ^ c.width = c.max + 1)
    (hw : WidthL pre c.offset) : c.At sl o := by
  refine ⟨pre, post, _, h, hp, hw, ?_, ?_, ?_, by omega⟩ <;>
  simp only [Slot.encode, pow_cast, hm]
  · intro b hb; split at hb <;> cases hb; rfl
  · constructor
    · intro hb
      split at hb
      · cases hb
      · omega
    · intro hb
      rw [if_neg (by omega)]
  · intro e hb; split at hb <;> cases hb; rfl

theorem CountField.At.signed {Obj : Type} {c : CountField Obj} {sl : Obj → List Slot} {o : Obj}
    {pre post : List Slot} (h : sl o = pre ++ .sint c.width (c.scale * c.len o : Nat) :: post)
    (hp : SizedL pre c.offset) (hm : 256 ^ c.width = 2 * (c.max + 1))
    (hw : WidthL pre c.offset) : c.At sl o := by
  refine ⟨pre, post, _, h, hp, hw, ?_, ?_, ?_, by omega⟩ <;>
  simp only [Slot.encode, pow_cast, hm]
  · intro b hb; split at hb <;> cases hb; rfl
  · constructor
    · intro hb
      split at hb
      · cases hb
      · omega
    · intro hb
      rw [if_neg (by omega)]
  · intro e hb; split at hb <;> cases hb; rfl

theorem Slot.stream_ok {l : List Slot} : (Slot.stream l).Ok ↔ ∀ s ∈ l, ∃ b, s.encode = .ok b := by
  induction l with
  | nil => simp [Slot.stream, W.Ok]
  | cons s l ih =>
    simp only [Slot.stream, List.forall_mem_cons, ← ih]
    cases s.encode with
    | ok b => simp [W.Ok]
    | error e => simp [W.Ok]

theorem Slot.stream_error {l : List Slot} {e} : (Slot.stream l).res = .error e ↔
    ∃ pre s post, l = pre ++ s :: post ∧ (∀ s' ∈ pre, ∃ b, s'.encode = .ok b) ∧
      s.encode = .error e := by
  induction l with
  | nil => simp [Slot.stream]
  | cons s l ih =>
    simp only [Slot.stream]
    cases hs : s.encode with
    | ok b =>
      simp only [ih]
      constructor
      · rintro ⟨pre, t, post, rfl, h1, h2⟩
        exact ⟨s :: pre, t, post, rfl, List.forall_mem_cons.2 ⟨⟨b, hs⟩, h1⟩, h2⟩
      · rintro ⟨pre, t, post, hl, h1, h2⟩
        cases pre with
        | nil => cases hl; rw [hs] at h2; cases h2
        | cons p pre => cases hl; exact ⟨pre, t, post, rfl, fun x hx => h1 x (by simp [hx]), h2⟩
    | error e' =>
      simp only
      constructor
      · intro h; cases h; exact ⟨[], s, l, rfl, by simp, hs⟩
      · rintro ⟨pre, t, post, hl, h1, h2⟩
        cases pre with
        | nil => cases hl; rw [hs] at h2; cases h2; rfl
        | cons p pre =>
          cases hl
          obtain ⟨b, hb⟩ := h1 s (by simp)
          rw [hs] at hb; cases hb

/-- The bytes of slots that can all be written. -/
theorem Slot.stream_out {pre : List Slot} (h : ∀ s ∈ pre, ∃ b, s.encode = .ok b) {s : Slot}
    {post : List Slot} {e} (he : s.encode = .error e) :
    Slot.stream (pre ++ s :: post) = ⟨(Slot.stream pre).out, .error e⟩ := by
  rw [Slot.stream_append]
  obtain ⟨u, hu⟩ := Slot.stream_ok.2 h
  rw [W.bind_ok hu]
  simp [Slot.stream, he]

theorem Slot.stream_flatten {l : List Slot} (h : ∀ s ∈ l, ∃ b, s.encode = .ok b) :
    ∃ bs : List Bytes, l.map Slot.encode = bs.map .ok ∧ (Slot.stream l).out = bs.flatten := by
  induction l with
  | nil => exact ⟨[], rfl, rfl⟩
  | cons s l ih =>
    obtain ⟨⟨b, hb⟩, hl⟩ := List.forall_mem_cons.1 h
    obtain ⟨bs, h1, h2⟩ := ih hl
    exact ⟨b :: bs, by simp [hb, h1], by simp [Slot.stream, hb, h2]⟩

theorem Slot.stream_size {l : List Slot} {b : Bytes} (h : (Slot.stream l).Emits b) :
    b.length = (l.map Slot.width).sum := by
  induction l generalizing b with
  | nil => obtain ⟨rfl, -⟩ := h; rfl
  | cons s l ih =>
    simp only [Slot.stream] at h
    cases hs : s.encode with
    | error e => rw [hs] at h; obtain ⟨-, _, h⟩ := h; cases h
    | ok x =>
      rw [hs] at h
      obtain ⟨rfl, hr⟩ := h
      simp [Slot.encode_width hs, ih ⟨rfl, hr⟩]

/-- Everything the generated proofs establish about a class. -/
structure Codec.Verified (c : Codec) : Prop where
  rt : ∀ s o, c.Decodable o → RT (c.serialize o) (c.parse s) (c.after s o)
  loc : ∀ s, Local (c.parse s)
  lay : ∀ o, Lay (c.serialize o) (c.wire o)
  sized : ∀ o, Sized (c.serialize o) (c.size o)
  ok_iff : ∀ o, (c.serialize o).Ok ↔ c.Fits o
  canon : ∀ o, c.Canon o → c.after c.fresh o = o
  post : Post (c.parse c.fresh) (fun b o => c.Live o →
    (c.Fits o ∧ c.Canon o) ∧ (c.lossless = true → c.NoNaN o → (c.serialize o).Emits b))
  only : c.onlyStruct = true → ∀ s, OnlyStruct (c.parse s)
  counted : ∀ f ∈ c.counts, ∀ o, f.At c.wire o
  appended : ∀ f ∈ c.counts, ∀ s o, c.Decodable o → c.Fits o → f.len (c.after s o) = f.len s + f.len o

theorem Codec.post_live {α} {r : R α} {F C N L : α → Prop} {w : α → W Unit}
    (h : Post r (fun b o => L o → (F o ∧ C o) ∧ (N o → (w o).Emits b))) :
    Post r (fun b o => L o → (F o ∧ C o) ∧ (true = true → N o → (w o).Emits b)) :=
  h.mono fun _ _ h l => ⟨(h l).1, fun _ => (h l).2⟩

theorem Codec.post_plain {α} {r : R α} {F C N L : α → Prop} {w : α → W Unit}
    (h : Post r (fun b o => (F o ∧ C o) ∧ (N o → (w o).Emits b))) :
    Post r (fun b o => L o → (F o ∧ C o) ∧ (true = true → N o → (w o).Emits b)) :=
  h.mono fun _ _ h _ => ⟨h.1, fun _ => h.2⟩

theorem Codec.post_lossy {α} {r : R α} {F C N L : α → Prop} {w : α → W Unit}
    (h : Post r (fun _ o => F o ∧ C o)) :
    Post r (fun b o => L o → (F o ∧ C o) ∧ (false = true → N o → (w o).Emits b)) :=
  h.mono fun _ _ h _ => ⟨h, fun e => nomatch e⟩

theorem Codec.post_live_lossy {α} {r : R α} {F C N L : α → Prop} {w : α → W Unit}
    (h : Post r (fun _ o => L o → F o ∧ C o)) :
    Post r (fun b o => L o → (F o ∧ C o) ∧ (false = true → N o → (w o).Emits b)) :=
  h.mono fun _ _ h l => ⟨h l, fun e => nomatch e⟩

end Dis
