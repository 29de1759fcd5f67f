import Verif.Proof.SourceText
import Verif.Props.Source
import Verif.Props.Data

/-!
# C77: the text of an entity marking, as syntax trees

`EntityMarking.setString` and `EntityMarking.charactersString` (/repo/opendis/dis7.py:1222-1231). A Python string is the list of
its code points.
-/

namespace Dis

open Src

/-- **C77.** `setString(s)` in the source: each of the first eleven characters becomes that of the string, or 0 beyond its end;
later ones stay. With fewer than eleven characters there are, `IndexError` is raised after these have been set. -/
theorem C77_setString (n : Nat) (x : EntityMarking) (s : List Int) (io : Streams) :
    methods program words streams (n + 1) I.EntityMarking I.setString (EntityMarking.enc x) [.str s] [] io =
      (if 11 ≤ x.characters.length then .ok .none else .error .indexError,
        EntityMarking.enc { x with characters := x.characters.mapIdx fun j c => if j < 11 then s.getD j 0 else c }, io) := by
  have := setString_runs n x s io
  simp only [written, Nat.zero_le, true_and, Nat.zero_add] at this
  exact this

/-- **C77.** `setString` of the source is that of the model. -/
theorem C77_setString_model (n : Nat) (x : EntityMarking) (s : List Int) (io : Streams) :
    (∀ y, x.setString s = .ok y → methods program words streams (n + 1) I.EntityMarking I.setString (EntityMarking.enc x) [.str s] [] io
      = (.ok .none, EntityMarking.enc y, io)) ∧
    ∀ e, x.setString s = .error e →
      (methods program words streams (n + 1) I.EntityMarking I.setString (EntityMarking.enc x) [.str s] [] io).1 = .error e := by
  rw [C77_setString]
  by_cases h : 11 ≤ x.characters.length
  · rw [setString_ok x s h, if_pos h]
    refine ⟨fun y hy => ?_, fun e he => nomatch he⟩
    cases hy
    have : (x.characters.mapIdx fun j c => if j < 11 then s.getD j 0 else c) = markingText s x.characters := by
      refine List.ext_getElem? fun j => ?_
      rw [markingText_get, List.getElem?_mapIdx]
      by_cases hj : j < 11
      · rw [if_pos (by omega), List.getElem?_eq_getElem (by omega : j < x.characters.length), Option.map_some, if_pos hj,
          List.getD_eq_getElem?_getD]
      · rw [if_neg (by omega)]
        cases x.characters[j]? with
        | none => rfl
        | some c => rw [Option.map_some, if_neg hj]
    rw [this]
  · rw [setString_short x s (by omega), if_neg h]
    refine ⟨fun y hy => ?_, fun e he => ?_⟩
    · cases hy
    · cases he; rfl

/-- **C77.** `charactersString()` in the source returns the string that the model returns, or raises what it raises, and changes
nothing. -/
theorem C77_charactersString (n : Nat) (x : EntityMarking) (io : Streams) :
    methods program words streams (n + 1) I.EntityMarking I.charactersString (EntityMarking.enc x) [] [] io =
      (x.charactersString.map .str, EntityMarking.enc x, io) :=
  charactersString_runs n x io

/-- **C77.** C29 for the source: an ASCII text without NUL that `setString` stores, `serialize` sends, `parse` of any other marking
object receives and `charactersString` returns is the text, cut to eleven characters. -/
theorem C77_text_over_the_wire (n : Nat) (m s : EntityMarking) (hm : m.characters.length = 11)
    (hc : 0 ≤ m.characterSet ∧ m.characterSet ≤ 255) (text : List Int) (ht : ∀ c ∈ text, 0 < c ∧ c < 128) (out : Bytes) :
    ∃ m' b v, (∀ io, methods program words streams (n + 8) I.EntityMarking I.setString (EntityMarking.enc m) [.str text] [] io
        = (.ok .none, m', io)) ∧ b.length = 12 ∧
      (∀ io, methods program words streams (n + 8) I.EntityMarking I.serialize m' [.out] [] io
        = (.ok .none, m', ⟨io.inp, io.out ++ b⟩)) ∧
      methods program words streams (n + 8) I.EntityMarking I.parse (EntityMarking.enc s) [.inp] [] ⟨⟨b, 0⟩, out⟩
        = (.ok .none, v, ⟨⟨b, 12⟩, out⟩) ∧
      ∀ io, methods program words streams (n + 8) I.EntityMarking I.charactersString v [] [] io
        = (.ok (.str (text.take 11)), v, io) := by
  obtain ⟨m', b, m'', h1, ⟨h2, u, h2'⟩, h3, h4, h5⟩ := C29_over_the_wire m s hm hc text ht
  have he : Sourced.EntityMarking ∈ sourced := by
    have : Sourced.EntityMarking ∈ sourced2 := by simp [sourced2]
    simp [sourced, this]
  refine ⟨EntityMarking.enc m', b, EntityMarking.enc m'', fun io => (C77_setString_model (n + 7) m text io).1 m' h1, h3,
    fun io => ?_, ?_, fun io => ?_⟩
  · have := C77_serialize .EntityMarking he n m' io
    refine this.trans ?_
    show (m'.serialize.res.map _, _, (⟨io.inp, io.out ++ m'.serialize.out⟩ : Streams)) = _
    rw [h2', h2]
    rfl
  · have := C77_parse .EntityMarking he n s ⟨⟨b, 0⟩, out⟩
    refine this.trans ?_
    have h6 := h4 [] []
    simp only [List.nil_append, List.append_nil, List.length_nil, Nat.zero_add, h3] at h6
    rw [← EntityMarking.into] at h6
    show ((EntityMarking.parseInto s ⟨b, 0⟩).1.map _, EntityMarking.enc (EntityMarking.parseInto s ⟨b, 0⟩).2.1,
      (⟨(EntityMarking.parseInto s ⟨b, 0⟩).2.2, out⟩ : Streams)) = _
    unfold P.run at h6
    rcases hp : EntityMarking.parseInto s ⟨b, 0⟩ with ⟨_ | _, y, t⟩
    · rw [hp] at h6; cases h6
    · rw [hp] at h6; cases h6; rfl
  · rw [C77_charactersString (n + 7), h5]
    rfl

/-! A concrete case: a tank, and a text that is too long. -/

example : methods program words streams 1 I.EntityMarking I.setString (EntityMarking.enc EntityMarking.init)
      [.str [84, 65, 78, 75]] [] ⟨⟨[], 0⟩, []⟩
    = (.ok .none, EntityMarking.enc ⟨0, [84, 65, 78, 75, 0, 0, 0, 0, 0, 0, 0]⟩, ⟨⟨[], 0⟩, []⟩) :=
  (C77_setString 0 EntityMarking.init _ _).trans rfl

example : methods program words streams 1 I.EntityMarking I.charactersString
      (EntityMarking.enc ⟨0, [84, 65, 78, 75, 0, 0, 0, 0, 0, 0, 0]⟩) [] [] ⟨⟨[], 0⟩, []⟩
    = (.ok (.str [84, 65, 78, 75]), EntityMarking.enc ⟨0, [84, 65, 78, 75, 0, 0, 0, 0, 0, 0, 0]⟩, ⟨⟨[], 0⟩, []⟩) := by
  kernel_rfl

/-- A marking of two characters: both are set, then `IndexError`. -/
example : methods program words streams 1 I.EntityMarking I.setString (EntityMarking.enc ⟨1, [65, 66]⟩) [.str [67]] [] ⟨⟨[], 0⟩, []⟩
    = (.error .indexError, EntityMarking.enc ⟨1, [67, 0]⟩, ⟨⟨[], 0⟩, []⟩) :=
  (C77_setString 0 _ _ _).trans rfl

end Dis
