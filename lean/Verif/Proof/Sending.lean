import Verif.Proof.Core

/-! # From round trips to receivers -/

namespace Dis

theorem returns_of_rt {α} {w : W Unit} {r : R α} {a o : α} (h : RT w r a) (e : a = o) {b : Bytes}
    (hb : w.Emits b) (post : Bytes) : r.Returns (b ++ post) o := by
  have := h b hb [] post
  simp at this
  simp [R.Returns, this, e]

end Dis
