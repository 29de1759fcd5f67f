import Verif.Spec.Source
import Verif.Proof.Source5

/-!
# What is proved of each class (C77)
-/

namespace Dis.Src

/-- The class of the model does what the source says. -/
structure Sourced.Lawful (e : Sourced) : Prop where
  serialize : ∀ n x, Serializes (run (n + 8)) e.cls (.obj e.cls (e.fields x)) (e.entry.codec.serialize x)
  parse : ∀ n, Parses (run (n + 8)) e.cls e.cls e.fields e.entry.into
  makes : e.makes = true → ∃ v, SameFields v (e.fields e.entry.codec.fresh) ∧ ∀ n, Makes (run (n + 8)) e.cls (.obj e.cls v) ∧
    Serializes (run (n + 8)) e.cls (.obj e.cls v) (e.entry.codec.serialize e.entry.codec.fresh) ∧
    Fills (run (n + 8)) e.cls (.obj e.cls v) e.fields e.entry.codec.fresh e.entry.into
  inj : ∀ x y, e.fields x = e.fields y → x = y

theorem SameFields.rfl' : ∀ fs, SameFields fs fs
  | [] => .nil
  | (_, v) :: fs => .cons (.refl v) (SameFields.rfl' fs)

theorem ofInt_zero : F64.ofInt 0 = some 0 := by decide +kernel

theorem packFloat_zero (w : F64 → W Unit) : packFloat w (.int 0) = w 0 := by
  simp only [packFloat, ofInt_zero, packIntAsFloat]

theorem int_inj {a b : Int} (h : some (Val.int a) = some (Val.int b)) : a = b := by cases h; rfl

theorem float_inj {a b : F64} (h : some (Val.float a) = some (Val.float b)) : a = b := by cases h; rfl

theorem obj_inj {α : Type} {c : Ident} {f : α → List (Ident × Val)} (hf : ∀ {x y}, f x = f y → x = y) {a b : α}
    (h : some (Val.obj c (f a)) = some (Val.obj c (f b))) : a = b := by
  simp only [Option.some.injEq, Val.obj.injEq, true_and] at h
  exact hf h

theorem list_inj {α : Type} {f : α → Val} (hf : ∀ {x y}, f x = f y → x = y) {a b : List α}
    (h : some (Val.list (a.map f)) = some (Val.list (b.map f))) : a = b := by
  simp only [Option.some.injEq, Val.list.injEq] at h
  exact (List.map_inj_right fun _ _ => hf).1 h

theorem enc_inj {α : Type} {c : Ident} {f : α → List (Ident × Val)} (hf : ∀ {x y}, f x = f y → x = y) {a b : α}
    (h : Val.obj c (f a) = Val.obj c (f b)) : a = b := by
  simp only [Val.obj.injEq, true_and] at h
  exact hf h

theorem ints_inj {a b : Int} (h : Val.int a = Val.int b) : a = b := by cases h; rfl

theorem floats_inj {a b : F64} (h : Val.float a = Val.float b) : a = b := by cases h; rfl

end Dis.Src
