import Lean.Elab.Tactic.Basic
import Verif.Proof.Source3

/-! # Reasoning about the syntax trees: properties, constructors -/

namespace Dis.Src

open Lean Meta Elab Tactic in
/-- Closes a goal `a = b` with `rfl` and leaves the check to the kernel. -/
elab "kernel_rfl" : tactic => liftMetaTactic fun g => do
  let t ← instantiateMVars (← g.getType)
  match t.eq? with
  | some (α, a, _) => g.assign (mkApp2 (mkConst ``Eq.refl [← getLevel α]) α a); return []
  | none => throwError "not an equation"

/-- The names of all properties. -/
def properties (P : Program) : List Ident :=
  P.flatMap fun c => (c.2.methods.filter fun m => m.2.property).map (·.1)

theorem mem_of_look {α : Type} {x : Ident} {v : α} : ∀ {l : List (Ident × α)}, look x l = some v → (x, v) ∈ l
  | [], h => by cases h
  | (y, w) :: l, h => by
    unfold look at h
    cases e : Nat.beq y x with
    | true =>
      rw [e] at h
      cases h
      rw [Nat.eq_of_beq_eq_true e]
      exact List.mem_cons_self
    | false => rw [e] at h; exact List.mem_cons_of_mem _ (mem_of_look h)

theorem mem_properties {P : Program} {n : Nat} : ∀ {c m d : Ident} {f : Method}, resolve P n c m = some (d, f) →
    f.property = true → m ∈ properties P := by
  induction n with
  | zero => intro c m d f h _; cases h
  | succ n ih =>
    intro c m d f h hf
    unfold resolve at h
    cases hk : look c P with
    | none => rw [hk] at h; cases h
    | some K =>
      rw [hk] at h
      simp only at h
      cases hm : look m K.methods with
      | some g =>
        rw [hm] at h
        cases h
        unfold properties
        refine List.mem_flatMap.2 ⟨(c, K), mem_of_look hk, List.mem_map.2 ⟨(m, f), List.mem_filter.2 ⟨mem_of_look hm, hf⟩, rfl⟩⟩
      | none =>
        rw [hm] at h
        simp only at h
        cases hb : K.base with
        | none => rw [hb] at h; cases h
        | some b => rw [hb] at h; exact ih h hf

/-- A name that no class has as a property. -/
theorem plain_of {k f : Ident} (L : List Ident) (hL : (properties program).all (fun p => L.any (Nat.beq p)) = true)
    (h : L.all (fun p => !Nat.beq p f) = true) : isProperty program k f = false := by
  unfold isProperty method
  cases hm : resolve program 16 k f with
  | none => rfl
  | some p =>
    obtain ⟨d, g⟩ := p
    show g.property = false
    cases hg : g.property with
    | false => rfl
    | true =>
      have h1 := List.all_eq_true.1 hL f (mem_properties hm hg)
      obtain ⟨p, hp, hpf⟩ := List.any_eq_true.1 h1
      have h2 := List.all_eq_true.1 h p hp
      rw [Nat.eq_of_beq_eq_true hpf, Nat.beq_refl] at h2
      cases h2

theorem gives_len_map {C : Call} {bs : List (Ident × Val)} {e : Expr} {α : Type} {v : α → Val} {l : List α}
    (h : Gives C bs e (.list (l.map v))) : Gives C bs (.call I.len [e] []) (.int l.length) := by
  have := gives_len h
  rwa [List.length_map] at this

theorem gives_attr_eq {C : Call} {bs : List (Ident × Val)} {e : Expr} {f k : Ident} {fs : List (Ident × Val)} {v v' : Int}
    (he : Gives C bs e (.obj k fs)) (hp : isProperty program k f = false) (hl : look f fs = some (.int v')) (h : v' = v) :
    Gives C bs (.attr e f) (.int v) := h ▸ gives_attr he hp hl

theorem packInt_int (f : Int → W Unit) (i : Int) : packInt f (.int i) = f i := rfl

theorem makes_of {n : Nat} {T : Ident} {v : Val} {p : Ident × Method}
    (h0 : (look T program).isSome = true) (h1 : Nat.beq T I.len = false) (h2 : Nat.beq T I.range = false)
    (h3 : Nat.beq T I.list = false) (hm : method program T I.__init__ = some p)
    (h : ∀ io, run n T I.__init__ (.obj T (classAttrs program 16 T)) [] [] io = (.ok .none, v, io)) : Makes (run n) T v where
  cls := h0
  len := h1
  range := h2
  list := h3
  made st := by
    unfold construct
    simp only [show words.init = I.__init__ from rfl, hm, h]

end Dis.Src
