import Verif.Proof.Core

/-! # Writers that begin with another writer -/

namespace Dis

/-- `w` first does what `h` does. -/
def Begins (w h : W Unit) : Prop := ∃ w2 : W Unit, w = h >>= fun _ => w2

theorem W.bind_assoc {α β γ} (w : W α) (k : α → W β) (l : β → W γ) :
    (w >>= k) >>= l = w >>= fun a => k a >>= l := by
  simp only [W.bind_def, W.bind]
  cases w.res with
  | error e => rfl
  | ok a =>
    simp only
    cases (k a).res with
    | error e => rfl
    | ok b => simp [List.append_assoc]

theorem W.bind_pure_unit (w : W Unit) : (w >>= fun _ => pure ()) = w := by
  cases w with
  | mk o r =>
    cases r with
    | error e => rfl
    | ok u => simp [W.bind_def, W.bind]

theorem Begins.refl {w : W Unit} : Begins w w := ⟨pure (), (W.bind_pure_unit w).symm⟩

theorem Begins.bind {w h : W Unit} {k : Unit → W Unit} (hb : Begins w h) : Begins (w >>= k) h := by
  obtain ⟨w2, rfl⟩ := hb
  exact ⟨w2 >>= k, W.bind_assoc ..⟩

theorem Begins.emits {w h : W Unit} (hb : Begins w h) {b : Bytes} (he : w.Emits b) :
    ∃ b1 b2, b = b1 ++ b2 ∧ h.Emits b1 := by
  obtain ⟨w2, rfl⟩ := hb
  obtain ⟨b1, b2, e, h1, -⟩ := W.emits_bind.1 he
  exact ⟨b1, b2, e, h1⟩

end Dis
