import Verif.Proof.Source4

/-! # Reasoning about the syntax trees: further statements, and objects holding integers instead of floats -/

namespace Dis.Src

/-- `self.f = e`. -/
theorem par_assign {σ : Type} {C : Call} {k : Ident} {gs : σ → List (Ident × Val)} {Q Q' : σ → Prop}
    {bs : List (Ident × Val)} {f : Ident} {e : Expr} {ss : List Stmt} {v : σ → Val} {u : σ → σ} {p : P σ Unit}
    (he : ∀ x, Q x → Gives C ((I.self, .obj k (gs x)) :: bs) e (v x))
    (hp : isProperty program k f = false) (hu : ∀ x, put f (v x) (gs x) = gs (u x))
    (hq : ∀ x, Q x → Q' (u x)) (h : Par C k gs Q' bs ss p) :
    Par C k gs Q bs (.assign (.attr (.name I.self) f) e :: ss) (P.set u >>= fun _ => p) := by
  refine par_cons (vs := fun _ => []) (Q' := fun _ => Q') (fun x hx st hst => ?_) (fun _ => h)
  have a1 := exec_assign (he x hx st hst) (hst.1 I.self _ rfl) hp
  rw [hu] at a1
  exact ⟨_, a1, look_put_same _ _ _, rfl, fun _ _ => ⟨hst.replace _ self_plain _, hq x hx⟩⟩

/-- `v = inputStream.read_x() & 1` and the like. -/
theorem par_local_bin {σ α : Type} {C : Call} {k : Ident} {gs : σ → List (Ident × Val)} {Q : σ → Prop}
    {bs : List (Ident × Val)} {m y : Ident} {op : Op} {c : Int} {ss : List Stmt} {inj : α → Val} {g : α → Val} {r : R α}
    {p : α → P σ Unit}
    (hm : look m streams.reads = some (reader inj r)) (hi : look I.inputStream bs = some .inp)
    (hg : ∀ v st, binary op (inj v) (.int c) st = (.ok (g v), st))
    (hy : isClass y = false) (hys : Nat.beq y I.self = false)
    (h : ∀ v, Par C k gs Q ((y, g v) :: bs) ss (p v)) :
    Par C k gs Q bs (.assign (.name y) (.bin op (.method (.name I.inputStream) m [] []) (.int c)) :: ss)
      (P.read r >>= p) := by
  refine par_cons (vs := fun v => [(y, g v)]) (Q' := fun _ => Q) (fun x hx st hst => ?_) h
  have he := eval_read (C := C) hm hst (show look I.inputStream ((I.self, Val.obj k (gs x)) :: bs) = some .inp from hi)
  unfold P.read
  rcases hr : r st.io.inp with ⟨e | v, s'⟩
  · rw [hr] at he
    have he' : ev C (.bin op (.method (.name I.inputStream) m [] []) (.int c)) st
        = (.error e, ⟨st.locals, ⟨s', st.io.out⟩⟩) := by
      unfold ev eval
      exact M.bind_error he
    exact ⟨_, exec_var_error he', hst.1 _ _ rfl, rfl, fun a ha => by cases ha⟩
  · rw [hr] at he
    have he' : ev C (.bin op (.method (.name I.inputStream) m [] []) (.int c)) st
        = (.ok (g v), ⟨st.locals, ⟨s', st.io.out⟩⟩) := by
      unfold ev eval
      refine (M.bind_ok he).trans ?_
      have hc : eval program words streams C (.int c) ⟨st.locals, ⟨s', st.io.out⟩⟩
          = (.ok (.int c), ⟨st.locals, ⟨s', st.io.out⟩⟩) := by unfold eval; rfl
      exact (M.bind_ok hc).trans (hg v _)
    refine ⟨_, exec_var he', ?_, rfl, fun a ha => ?_⟩
    · rw [look_put_ne hys]; exact hst.1 _ _ rfl
    · cases ha
      exact ⟨hst.skip hy hys _ rfl, hx⟩

/-! Some constructors put an integer where `serialize` and `parse` have a float. Such an object is described by the
object of the model and the values it really holds; a parse of it ends like one of the object of the model. -/

/-- `p'` on the larger state does what `p` does. -/
def Over {ρ σ α : Type} (π : ρ → σ) (p' : P ρ α) (p : P σ α) : Prop :=
  ∀ r s, (p' r s).1 = (p (π r) s).1 ∧ π (p' r s).2.1 = (p (π r) s).2.1 ∧ (p' r s).2.2 = (p (π r) s).2.2

theorem over_pure {ρ σ α : Type} {π : ρ → σ} {a : α} : Over π (pure a) (pure a) := fun _ _ => ⟨rfl, rfl, rfl⟩

theorem over_bind {ρ σ α β : Type} {π : ρ → σ} {p' : P ρ α} {p : P σ α} {k' : α → P ρ β} {k : α → P σ β}
    (h : Over π p' p) (hk : ∀ a, Over π (k' a) (k a)) : Over π (p' >>= k') (p >>= k) := fun r s => by
  show (P.bind p' k' r s).1 = (P.bind p k (π r) s).1 ∧ π (P.bind p' k' r s).2.1 = (P.bind p k (π r) s).2.1 ∧
    (P.bind p' k' r s).2.2 = (P.bind p k (π r) s).2.2
  obtain ⟨h1, h2, h3⟩ := h r s
  unfold P.bind
  rcases e' : p' r s with ⟨x', r', s'⟩
  rcases e : p (π r) s with ⟨x, t, s2⟩
  rw [e', e] at h1 h2 h3
  simp only at h1 h2 h3
  subst h1 h2 h3
  cases x' with
  | error _ => exact ⟨rfl, rfl, rfl⟩
  | ok a => exact hk a r' s'

theorem over_read {ρ σ α : Type} {π : ρ → σ} {r : R α} : Over π (P.read r) (P.read r) := fun _ _ => ⟨rfl, rfl, rfl⟩

theorem over_set {ρ σ : Type} {π : ρ → σ} {u' : ρ → ρ} {u : σ → σ} (h : ∀ r, π (u' r) = u (π r)) :
    Over π (P.set u') (P.set u) := fun r _ => ⟨rfl, h r, rfl⟩

theorem over_call {ρ σ ρ' σ' : Type} {π : ρ → σ} {π' : ρ' → σ'} {a' : Attr ρ ρ'} {a : Attr σ σ'} {q' : P ρ' Unit}
    {q : P σ' Unit} (hq : Over π' q' q) (hget : ∀ r, π' (a'.get r) = a.get (π r))
    (hput : ∀ r t, π (a'.put r t) = a.put (π r) (π' t)) : Over π (P.call a' q') (P.call a q) := fun r s => by
  obtain ⟨h1, h2, h3⟩ := hq (a'.get r) s
  rw [hget] at h1 h2 h3
  exact ⟨h1, by show π (a'.put r _) = a.put (π r) _; rw [hput, h2], h3⟩

theorem over_same {ρ σ τ : Type} {π : ρ → σ} {a' : Attr ρ τ} {a : Attr σ τ} {q : P τ Unit}
    (hget : ∀ r, a'.get r = a.get (π r)) (hput : ∀ r t, π (a'.put r t) = a.put (π r) t) :
    Over π (P.call a' q) (P.call a q) :=
  over_call (π' := id) (fun _ _ => ⟨rfl, rfl, rfl⟩) hget hput

theorem over_objs {ρ σ τ : Type} {π : ρ → σ} {a' : Attr ρ (List τ)} {a : Attr σ (List τ)} {fresh : τ} {q : P τ Unit}
    (hget : ∀ r, a'.get r = a.get (π r)) (hput : ∀ r t, π (a'.put r t) = a.put (π r) t) (n : Nat) :
    Over π (P.appendObjs n fresh q a') (P.appendObjs n fresh q a) := by
  induction n with
  | zero => exact over_pure
  | succ n ih =>
    refine over_bind (p' := P.element fresh q) (p := P.element fresh q) (fun r s => ?_) fun t =>
      over_bind (over_set fun r => ?_) fun _ => ih
    · unfold P.element
      rcases q fresh s with ⟨_ | _, _, _⟩ <;> exact ⟨rfl, rfl, rfl⟩
    · rw [hput, hget]

theorem over_setReads {ρ σ : Type} {π : ρ → σ} {a' : Attr ρ (List Int)} {a : Attr σ (List Int)} {r : R Int}
    (hget : ∀ r, a'.get r = a.get (π r)) (hput : ∀ r t, π (a'.put r t) = a.put (π r) t) (n : Nat) :
    ∀ i, Over π (P.setReads i n r a') (P.setReads i n r a) := by
  induction n with
  | zero => exact fun _ => over_pure
  | succ n ih =>
    intro i
    exact over_bind over_read fun t => over_bind (over_set fun r => by rw [hput, hget]) fun _ => ih _

theorem over_fill {ρ σ : Type} {π : ρ → σ} {a' : Attr ρ (List Int)} {a : Attr σ (List Int)} {r : R Int} {n : Nat}
    (hget : ∀ r, a'.get r = a.get (π r)) (hput : ∀ r t, π (a'.put r t) = a.put (π r) t) :
    Over π (P.fillReads n r a') (P.fillReads n r a) :=
  over_bind (over_set fun r => hput r _) fun _ => over_setReads hget hput n 0

/-- If `p` ends well, then with a state that has the property `Q'`. -/
def Ends {ρ α : Type} (Q : ρ → Prop) (p : P ρ α) (Q' : ρ → Prop) : Prop :=
  ∀ r s a, Q r → (p r s).1 = .ok a → Q' (p r s).2.1

theorem ends_pure {ρ α : Type} {Q : ρ → Prop} {a : α} : Ends Q (pure a) Q := fun _ _ _ h _ => h

theorem ends_bind {ρ α β : Type} {Q Q1 Q2 : ρ → Prop} {p : P ρ α} {k : α → P ρ β} (h : Ends Q p Q1)
    (hk : ∀ a, Ends Q1 (k a) Q2) : Ends Q (p >>= k) Q2 := fun r s b hr hb => by
  change (P.bind p k r s).1 = .ok b at hb
  show Q2 (P.bind p k r s).2.1
  have h1 := fun a => h r s a hr
  unfold P.bind at hb ⊢
  rcases e : p r s with ⟨x | a, r', s'⟩
  · rw [e] at hb; cases hb
  · rw [e] at hb h1
    exact hk a r' s' b (h1 a rfl) hb

theorem ends_read {ρ α : Type} {Q : ρ → Prop} {r : R α} : Ends Q (P.read r) Q := fun _ _ _ h _ => h

theorem ends_set {ρ : Type} {Q : ρ → Prop} (Q' : ρ → Prop) {u : ρ → ρ} (h : ∀ r, Q r → Q' (u r)) :
    Ends Q (P.set u) Q' := fun r _ _ hr _ => h r hr

theorem ends_keep {ρ : Type} {Q : ρ → Prop} {u : ρ → ρ} (h : ∀ r, Q r → Q (u r)) : Ends Q (P.set u) Q := ends_set Q h

theorem ends_call {ρ τ : Type} {Q : ρ → Prop} {a : Attr ρ τ} {q : P τ Unit} (h : ∀ r t, Q r → Q (a.put r t)) :
    Ends Q (P.call a q) Q := fun r _ _ hr _ => h r _ hr

theorem ends_part {ρ τ : Type} {Q : ρ → Prop} (Q' : ρ → Prop) {Q1 : τ → Prop} {a : Attr ρ τ} {q : P τ Unit}
    (hq : Ends (fun _ => True) q Q1) (h : ∀ r t, Q r → Q1 t → Q' (a.put r t)) : Ends Q (P.call a q) Q' :=
  fun r s b hr hb => h r _ hr (hq (a.get r) s b trivial hb)

theorem ends_objs {ρ τ : Type} {Q : ρ → Prop} {a : Attr ρ (List τ)} {fresh : τ} {q : P τ Unit}
    (h : ∀ r t, Q r → Q (a.put r t)) (n : Nat) : Ends Q (P.appendObjs n fresh q a) Q := by
  induction n with
  | zero => exact ends_pure
  | succ n ih =>
    refine ends_bind (Q1 := Q) (fun r s b hr _ => ?_) fun _ => ends_bind (ends_keep fun r hr => h r _ hr) fun _ => ih
    unfold P.element
    rcases q fresh s with ⟨_ | _, _, _⟩ <;> exact hr

theorem ends_setReads {ρ : Type} {Q : ρ → Prop} {a : Attr ρ (List Int)} {r : R Int} (h : ∀ r t, Q r → Q (a.put r t))
    (n : Nat) : ∀ i, Ends Q (P.setReads i n r a) Q := by
  induction n with
  | zero => exact fun _ => ends_pure
  | succ n ih => exact fun i => ends_bind ends_read fun _ => ends_bind (ends_keep fun r hr => h r _ hr) fun _ => ih _

theorem ends_fill {ρ : Type} {Q : ρ → Prop} {a : Attr ρ (List Int)} {r : R Int} {n : Nat}
    (h : ∀ r t, Q r → Q (a.put r t)) : Ends Q (P.fillReads n r a) Q :=
  ends_bind (ends_keep fun r hr => h r _ hr) fun _ => ends_setReads h n 0

theorem fills_over {ρ τ : Type} {C : Call} {c : Ident} {hs : τ → List (Ident × Val)} {hs' : ρ → List (Ident × Val)}
    {π : ρ → τ} {Q : ρ → Prop} {fresh : τ} {raw : ρ} {q : P τ Unit} {q' : P ρ Unit}
    (hparse : Parses C c c hs' q') (hover : Over π q' q)
    (hends : Ends (fun _ => True) q' Q) (hraw : π raw = fresh) (hfin : ∀ r, Q r → hs' r = hs (π r)) :
    Fills C c (.obj c (hs' raw)) hs fresh q := by
  subst hraw
  refine fun io => ⟨.obj c (hs' (q' raw io.inp).2.1), ?_, fun u hu => ?_⟩
  · obtain ⟨h1, -, h3⟩ := hover raw io.inp
    rw [hparse raw io, h1, h3]
  · obtain ⟨h1, h2, -⟩ := hover raw io.inp
    rw [hfin _ (hends raw io.inp u trivial (h1.trans hu)), h2]

theorem builds_over {ρ τ : Type} {C : Call} {c : Ident} {hs : τ → List (Ident × Val)} {hs' : ρ → List (Ident × Val)}
    {π : ρ → τ} {Q : ρ → Prop} {fresh : τ} {raw : ρ} {q : P τ Unit} {q' : P ρ Unit}
    (hnew : Makes C c (.obj c (hs' raw))) (hparse : Parses C c c hs' q') (hover : Over π q' q)
    (hends : Ends (fun _ => True) q' Q) (hraw : π raw = fresh) (hfin : ∀ r, Q r → hs' r = hs (π r)) :
    Builds C c hs fresh q :=
  ⟨_, hnew, fills_over hparse hover hends hraw hfin⟩

end Dis.Src
