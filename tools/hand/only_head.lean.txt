import Verif.Proof.TakesSpecial
import Verif.Proof.AnyPdu
import Verif.Spec.Raised

/-!
# Exceptions the factory's classes raise, and the size of what they re-send

Generated by `tools/genonly.py`.
-/

namespace Dis

/-- Every exception `r` raises is in `E`. -/
def Only {α} (E : List PyErr) (r : R α) : Prop := ∀ st e, (r st).1 = .error e → e ∈ E

theorem Only.pure {α E} (a : α) : Only E (Pure.pure a : R α) := by intro st e h; cases h

theorem Only.throw {α E e} (h : e ∈ E) : Only E (R.throw e : R α) := by intro st e' h'; cases h'; exact h

theorem Only.bind {α β E} {r : R α} {k : α → R β} (h1 : Only E r) (h2 : ∀ a, Only E (k a)) :
    Only E (r >>= k) := by
  intro st e h
  rcases hr : r st with ⟨x, s1⟩
  cases x with
  | ok a => rw [R.bind_ok hr] at h; exact h2 a _ _ h
  | error e' => rw [R.bind_error hr] at h; cases h; exact h1 st _ (by rw [hr])

theorem Only.times {α E} {r : R α} (h : Only E r) (n : Nat) : Only E (R.times n r) := by
  induction n with
  | zero => exact Only.pure _
  | succ n ih => exact Only.bind h fun _ => Only.bind ih fun _ => Only.pure _

theorem OnlyStruct.to {α E} {r : R α} (h : OnlyStruct r) (hE : PyErr.structError ∈ E) : Only E r :=
  fun st e he => h st e he ▸ hE

theorem Only.ofExcept {α E} {x : Except PyErr α} (h : ∀ e, x = .error e → e ∈ E) : Only E (R.ofExcept x) :=
  fun _ e he => h e he

theorem Only.read_bytes {E n} : Only E (read_bytes n) := by intro st e h; cases h

theorem Takes.resend {α} {r : R α} {m : α → Nat} {w : α → W Unit} {k : α → AnyPdu} (h : Takes r m)
    (hs : ∀ a, Sized (w a) (m a)) (hk : ∀ a, (k a).serialize = w a) :
    Post (r >>= fun x => Pure.pure (k x)) (fun b p => ∀ b', p.serialize.Emits b' → b'.length = b.length) :=
  Post.last h fun a b hb b' hb' => by rw [hk] at hb'; rw [hs a b' hb', hb]

theorem IntercomControlPdu.noPost {Q} :
    Post (IntercomControlPdu.parse IntercomControlPdu.init) Q := by
  unfold IntercomControlPdu.parse
  refine Post.bind (RadioCommunicationsFamilyPdu.takes _) fun _ _ _ => ?_
  iterate 2 refine Post.bind len_unsigned_byte fun _ _ _ => ?_
  refine Post.bind EntityIdentifier.takes fun _ _ _ => ?_
  iterate 5 refine Post.bind len_unsigned_byte fun _ _ _ => ?_
  refine Post.bind EntityIdentifier.takes fun _ _ _ => ?_
  refine Post.bind len_unsigned_short fun _ _ _ => ?_
  refine Post.bind len_unsigned_int fun _ _ _ => ?_
  exact Post.bind (Post.throw (Q := fun _ _ => False) _) fun _ _ h => h.elim
