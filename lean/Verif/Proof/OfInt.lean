import Verif.Proof.HeapNumbers

/-! # Integers as doubles, with the exponent as a variable -/

namespace Dis

theorem F64.ofInt_units {n : Int} (hn : n.natAbs ≤ 1000) :
    ∃ x k, F64.ofInt n = some x ∧ x.Finite ∧ k = 1074 ∧ x.units = n * 2 ^ k := by
  obtain ⟨x, e1, e2⟩ := F64.ofInt_exact (n := n) (Nat.le_trans hn (by decide))
  exact ⟨x, _, e1, (F64.ofInt_form e1).1, rfl, e2⟩

end Dis
