import Verif.Stream
import Verif.Spec

/-! # Proof machinery: sequencing of writers and readers (no property statements here) -/

namespace Dis

/-! ## Writers -/

@[simp] theorem W.pure_out {α} (a : α) : (pure a : W α).out = [] := rfl
@[simp] theorem W.pure_res {α} (a : α) : (pure a : W α).res = .ok a := rfl
theorem W.bind_def {α β} (w : W α) (k : α → W β) : (w >>= k) = W.bind w k := rfl

theorem W.bind_ok {α β} {w : W α} {k : α → W β} {a : α} (h : w.res = .ok a) :
    (w >>= k) = ⟨w.out ++ (k a).out, (k a).res⟩ := by
  rw [W.bind_def, W.bind, h]

theorem W.bind_error {α β} {w : W α} {k : α → W β} {e} (h : w.res = .error e) :
    (w >>= k) = ⟨w.out, .error e⟩ := by
  rw [W.bind_def, W.bind, h]

theorem W.ok_bind {w : W Unit} {β} {k : Unit → W β} : (w >>= k).Ok ↔ w.Ok ∧ (k ()).Ok := by
  unfold W.Ok
  cases h : w.res with
  | ok a => rw [W.bind_ok h]; simp
  | error e => rw [W.bind_error h]; simp

@[simp] theorem W.ok_pure {α} (a : α) : (pure a : W α).Ok := ⟨a, rfl⟩
@[simp] theorem W.ok_emit (b : Bytes) : (W.emit b).Ok := ⟨(), rfl⟩
theorem W.not_ok_throw {α} (e) : ¬ (W.throw e : W α).Ok := by rintro ⟨a, h⟩; cases h

theorem W.emits_iff {w : W Unit} {b : Bytes} : w.Emits b ↔ w = ⟨b, .ok ()⟩ := by
  constructor
  · rintro ⟨h1, _, h2⟩; cases w; simp_all
  · rintro rfl; exact ⟨rfl, (), rfl⟩

theorem W.Ok.emits {α} {w : W α} (h : w.Ok) : w.Emits w.out := ⟨rfl, h⟩
theorem W.Emits.ok {α} {w : W α} {b} (h : w.Emits b) : w.Ok := h.2
theorem W.Emits.out_eq {α} {w : W α} {b} (h : w.Emits b) : w.out = b := h.1

theorem W.emits_bind {w : W Unit} {β} {k : Unit → W β} {b : Bytes} :
    (w >>= k).Emits b ↔ ∃ b1 b2, b = b1 ++ b2 ∧ w.Emits b1 ∧ (k ()).Emits b2 := by
  unfold W.Emits
  cases h : w.res with
  | ok a =>
    rw [W.bind_ok h]
    constructor
    · rintro ⟨h1, h2⟩
      exact ⟨_, _, h1.symm, ⟨rfl, a, rfl⟩, rfl, h2⟩
    · rintro ⟨b1, b2, rfl, ⟨rfl, _⟩, rfl, h2⟩
      exact ⟨rfl, h2⟩
  | error e => rw [W.bind_error h]; simp

theorem W.Emits.bind {w : W Unit} {β} {k : Unit → W β} {b1 b2 : Bytes} (h1 : w.Emits b1)
    (h2 : (k ()).Emits b2) : (w >>= k).Emits (b1 ++ b2) :=
  W.emits_bind.2 ⟨b1, b2, rfl, h1, h2⟩

theorem W.emits_pure {α} (a : α) : (pure a : W α).Emits [] := ⟨rfl, a, rfl⟩

/-! ## Readers -/

theorem R.bind_def {α β} (r : R α) (k : α → R β) (s) : (r >>= k) s = R.bind r k s := rfl
@[simp] theorem R.pure_def {α} (a : α) (s) : (pure a : R α) s = (.ok a, s) := rfl

theorem R.bind_ok {α β} {r : R α} {k : α → R β} {a s s'} (h : r s = (.ok a, s')) :
    (r >>= k) s = k a s' := by rw [R.bind_def, R.bind, h]

theorem R.bind_error {α β} {r : R α} {k : α → R β} {e s s'} (h : r s = (.error e, s')) :
    (r >>= k) s = (.error e, s') := by rw [R.bind_def, R.bind, h]

theorem R.bind_inv {α β} {r : R α} {k : α → R β} {c s s'} (h : (r >>= k) s = (.ok c, s')) :
    ∃ a s1, r s = (.ok a, s1) ∧ k a s1 = (.ok c, s') := by
  rcases hr : r s with ⟨x, s1⟩
  cases x with
  | ok a => rw [R.bind_ok hr] at h; exact ⟨a, s1, rfl, h⟩
  | error e => rw [R.bind_error hr] at h; cases h

theorem Reads.pure {α} (a : α) : Reads (pure a) [] a := by
  intro pre post; simp

theorem Reads.bind {α β} {r : R α} {k : α → R β} {b1 b2 a c} (h1 : Reads r b1 a)
    (h2 : Reads (k a) b2 c) : Reads (r >>= k) (b1 ++ b2) c := by
  intro pre post
  have e1 := h1 pre (b2 ++ post)
  have e2 := h2 (pre ++ b1) post
  simp only [List.append_assoc] at e1 e2 ⊢
  rw [R.bind_ok e1]
  simpa [List.length_append, Nat.add_assoc] using e2

theorem Reads.map {α β} {r : R α} {b a} (h1 : Reads r b a) (f : α → β) :
    Reads (r >>= fun x => Pure.pure (f x)) b (f a) := by
  have := Reads.bind (k := fun x => Pure.pure (f x)) h1 (Reads.pure (f a))
  simpa using this

theorem Reads.returns {α} {r : R α} {b a} (h : Reads r b a) : r.Returns b a := by
  have := h [] []
  simp at this
  simp [R.Returns, this]

theorem Reads.run {α} {r : R α} {b a} (h : Reads r b a) : r ⟨b, 0⟩ = (.ok a, ⟨b, b.length⟩) := by
  simpa using h [] []

theorem Reads.unique {α} {r : R α} {b a a'} (h : Reads r b a) (h' : Reads r b a') : a = a' := by
  have h1 := h.returns
  have h2 := h'.returns
  unfold R.Returns at h1 h2
  rw [h1] at h2; exact Except.ok.inj h2

/-! ## Lockstep round trip -/

/-- Whenever the writer succeeds, the reader reads its output back as `a`. -/
def RT {α} (w : W Unit) (r : R α) (a : α) : Prop := ∀ b, w.Emits b → Reads r b a

theorem RT.bind {α β} {w : W Unit} {w2 : W Unit} {r : R α} {k : α → R β} {a c}
    (h1 : RT w r a) (h2 : RT w2 (k a) c) : RT (w >>= fun _ => w2) (r >>= k) c := by
  intro b hb
  obtain ⟨b1, b2, rfl, e1, e2⟩ := W.emits_bind.1 hb
  exact (h1 _ e1).bind (h2 _ e2)

/-- A step of the reader that consumes nothing. -/
theorem RT.silent {α β} {w : W Unit} {r : R α} {k : α → R β} {a c}
    (h1 : Reads r [] a) (h2 : RT w (k a) c) : RT w (r >>= k) c := by
  intro b hb
  exact h1.bind (h2 _ hb)

theorem RT.last {α β} {w : W Unit} {r : R α} {f : α → β} {a}
    (h1 : RT w r a) : RT w (r >>= fun x => pure (f x)) (f a) :=
  fun b hb => (h1 b hb).map f

theorem RT.pure {α} (a : α) (u : Unit) : RT (pure u) (pure a) a := by
  rintro b ⟨rfl, -⟩; exact Reads.pure a

theorem RT.of_eq {α} {w : W Unit} {r : R α} {a a'} (h : RT w r a) (e : a = a') : RT w r a' :=
  e ▸ h

/-- A failing writer: vacuous. -/
theorem RT.of_not_ok {α} {w : W Unit} {r : R α} {a} (h : ¬ w.Ok) : RT w r a :=
  fun _ hb => absurd hb.ok h

/-! ## Locality of readers -/

/-- A successful run depends only on the bytes it consumed, and reads forward inside the data. -/
def Local {α} (r : R α) : Prop :=
  ∀ pre suf a s', r ⟨pre ++ suf, pre.length⟩ = (.ok a, s') →
    ∃ b rest, suf = b ++ rest ∧ s' = ⟨pre ++ suf, pre.length + b.length⟩ ∧ Reads r b a

theorem Local.pure {α} (a : α) : Local (pure a : R α) := by
  intro pre suf a' s' h
  cases h
  exact ⟨[], suf, rfl, rfl, Reads.pure a⟩

theorem Local.throw {α} (e) : Local (R.throw e : R α) := by
  intro pre suf a' s' h; cases h

theorem Local.ofExcept {α} (x : Except PyErr α) : Local (R.ofExcept x) := by
  intro pre suf a' s' h
  cases h
  exact ⟨[], suf, rfl, rfl, by intro pre post; simp [R.ofExcept]⟩

theorem Local.bind {α β} {r : R α} {k : α → R β} (h1 : Local r) (h2 : ∀ a, Local (k a)) :
    Local (r >>= k) := by
  intro pre suf c s' h
  obtain ⟨a, s1, hr, hk⟩ := R.bind_inv h
  obtain ⟨b1, rest1, rfl, rfl, hr1⟩ := h1 _ _ _ _ hr
  have hk' : k a ⟨(pre ++ b1) ++ rest1, (pre ++ b1).length⟩ = (.ok c, s') := by
    simpa [List.append_assoc] using hk
  obtain ⟨b2, rest2, rfl, rfl, hr2⟩ := h2 a _ _ _ _ hk'
  refine ⟨b1 ++ b2, rest2, by simp, ?_, hr1.bind hr2⟩
  simp [Nat.add_assoc]

theorem Local.times {α} {r : R α} (h : Local r) (n : Nat) : Local (R.times n r) := by
  induction n with
  | zero => exact Local.pure _
  | succ n ih => exact Local.bind h fun _ => Local.bind ih fun _ => Local.pure _

theorem Local.ite {α} {c : Prop} [Decidable c] {r1 r2 : R α} (h1 : Local r1) (h2 : Local r2) :
    Local (if c then r1 else r2) := by split <;> assumption

/-- No proper prefix of an accepted byte string is accepted. -/
theorem Local.truncated {α} {r : R α} (hl : Local r) {b : Bytes} {a} (h : Reads r b a)
    {t u : Bytes} (hb : b = t ++ u) (hu : u ≠ []) : r.Raises t := by
  unfold R.Raises
  rcases hr : r ⟨t, 0⟩ with ⟨x, s'⟩
  cases x with
  | error e => exact ⟨e, rfl⟩
  | ok a' =>
    exfalso
    obtain ⟨b', rest, rfl, -, hr'⟩ := hl [] t a' s' (by simpa using hr)
    have e1 := hr' [] (rest ++ u)
    have e2 := h.run
    subst hb
    simp only [List.nil_append, List.append_assoc, List.length_nil, Nat.zero_add] at e1 e2
    rw [e1] at e2
    injection e2 with _ e2
    injection e2 with _ e2
    simp at e2
    exact hu e2.2

/-- Two accepted byte strings of which one extends the other are equal. -/
theorem Reads.prefix_free {α} {r : R α} {b a b' a'} (h : Reads r b a) (h' : Reads r b' a')
    (hp : b <+: b') : b = b' := by
  obtain ⟨u, rfl⟩ := hp
  have e1 := h [] u
  have e2 := h'.run
  simp only [List.nil_append, List.length_nil, Nat.zero_add] at e1
  rw [e1] at e2
  injection e2 with _ e2
  injection e2 with _ e2
  simp at e2
  simp [e2]

/-! ## Loops -/

theorem RT.forEach {α β} {l : List α} {body : α → W Unit} {r : R β} {f : α → β}
    (h : ∀ x ∈ l, RT (body x) r (f x)) : RT (W.forEach l body) (R.times l.length r) (l.map f) := by
  induction l with
  | nil => exact RT.pure _ _
  | cons x xs ih =>
    refine RT.bind (h x (by simp)) (RT.last (f := fun ys => f x :: ys) (ih fun y hy => h y ?_))
    simp [hy]

theorem W.forEach_ok {α} {l : List α} {body : α → W Unit} :
    (W.forEach l body).Ok ↔ ∀ x ∈ l, (body x).Ok := by
  induction l with
  | nil => simp [W.forEach]
  | cons x xs ih => simp [W.forEach, W.ok_bind, ih]

/-! ## Lengths -/

/-- A successful writer emits exactly `n` bytes. -/
def Sized (w : W Unit) (n : Nat) : Prop := ∀ b, w.Emits b → b.length = n

theorem Sized.bind {w w2 : W Unit} {n m} (h1 : Sized w n) (h2 : Sized w2 m) :
    Sized (w >>= fun _ => w2) (n + m) := by
  intro b hb
  obtain ⟨b1, b2, rfl, e1, e2⟩ := W.emits_bind.1 hb
  simp [h1 _ e1, h2 _ e2]

theorem Sized.pure (u : Unit) : Sized (pure u) 0 := by
  rintro b ⟨rfl, -⟩; rfl

theorem Sized.of_eq {w : W Unit} {n m} (h : Sized w n) (e : n = m) : Sized w m := e ▸ h

theorem Sized.of_not_ok {w : W Unit} {n} (h : ¬ w.Ok) : Sized w n :=
  fun _ hb => absurd hb.ok h

theorem Sized.forEach {α} {l : List α} {body : α → W Unit} {size : α → Nat}
    (h : ∀ x, Sized (body x) (size x)) : Sized (W.forEach l body) (l.map size).sum := by
  induction l with
  | nil => exact Sized.pure ()
  | cons x xs ih => exact Sized.bind (h x) ih

theorem Sized.forEach_const {α} {l : List α} {body : α → W Unit} {n : Nat}
    (h : ∀ x, Sized (body x) n) : Sized (W.forEach l body) (n * l.length) := by
  refine (Sized.forEach (size := fun _ => n) h).of_eq ?_
  induction l with
  | nil => rfl
  | cons x xs ih => simp [ih]; rw [Nat.mul_succ, Nat.add_comm]

/-! ## Reverse direction: what was read can be written again -/

/-- Whatever the reader accepts with `P`, the writer reproduces byte for byte. -/
def Rev {α} (r : R α) (w : α → W Unit) (P : α → Prop) : Prop :=
  ∀ pre suf a s', r ⟨pre ++ suf, pre.length⟩ = (.ok a, s') → P a →
    ∃ b rest, suf = b ++ rest ∧ s' = ⟨pre ++ suf, pre.length + b.length⟩ ∧ (w a).Emits b

end Dis
