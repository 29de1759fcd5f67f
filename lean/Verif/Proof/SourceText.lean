import Verif.Proof.SourceRadio
import Verif.Proof.SourceRun2
import Verif.Proof.Text

/-!
# The text of an entity marking, as the source sets and reads it
-/

namespace Dis.Src

/-- The variables in the loop of `setString` (/repo/opendis/dis7.py:1222-1227). -/
def textVars (x : Dis.EntityMarking) (i : Nat) (s : List Int) : List (Ident × Val) :=
  [(I.self, EntityMarking.enc x), (I.__class__, .cls I.EntityMarking), (I.idx, .int i), (I.new_str, .str s)]

theorem textVars_env {x : Dis.EntityMarking} {i : Nat} {s : List Int} {io : Streams} :
    Env (textVars x i s) ⟨textVars x i s, io⟩ := by
  refine ⟨fun _ _ h => h, fun y hy => ?_⟩
  have h1 : ∀ z, isClass z = false → Nat.beq z y = false := fun z hz => by
    cases e : Nat.beq z y with
    | false => rfl
    | true => rw [Nat.eq_of_beq_eq_true e, hy] at hz; cases hz
  show look y (textVars x i s) = none
  simp only [textVars, look, h1 I.self (by decide +kernel), h1 I.__class__ (by decide +kernel), h1 I.idx (by decide +kernel),
    h1 I.new_str (by decide +kernel)]

theorem put_char {C : Call} {x : Dis.EntityMarking} {i : Nat} {s : List Int} {io : Streams} {e : Expr} {k : Int}
    (h : Gives C (textVars x i s) e (.int k)) :
    ex C (.assign (.index (.attr (.name I.self) I.characters) (.name I.idx)) e) ⟨textVars x i s, io⟩ =
      if i < x.characters.length then (.ok none, ⟨textVars { x with characters := x.characters.set i k } i s, io⟩)
      else (.error .indexError, ⟨textVars x i s, io⟩) := by
  have hl : Gives C (textVars x i s) (.attr (.name I.self) I.characters) (.list (x.characters.map .int)) :=
    gives_attr (gives_name rfl) (plain rfl) rfl
  have hi : Gives C (textVars x i s) (.name I.idx) (.int i) := gives_name rfl
  unfold ex exec
  refine (M.bind_ok (h _ textVars_env)).trans ((M.bind_ok (hl _ textVars_env)).trans ((M.bind_ok (hi _ textVars_env)).trans ?_))
  simp only [Int.toNat_natCast, List.length_map, Int.natCast_nonneg, true_and]
  split
  · have : (x.characters.map Val.int).set i (.int k) = (x.characters.set i k).map .int := List.map_set.symm
    rw [this]
    rfl
  · rfl

theorem gives_char {C : Call} {bs : List (Ident × Val)} {s : List Int} {i : Nat} {c : Int}
    (h : Gives C bs (.name I.new_str) (.str s)) (hi : Gives C bs (.name I.idx) (.int i)) (hc : s[i]? = some c) :
    Gives C bs (.prim .ord (.index (.name I.new_str) (.name I.idx))) (.int c) := fun st hst => by
  have h1 : ev C (.index (.name I.new_str) (.name I.idx)) st = (.ok (.str [c]), st) := by
    unfold ev eval
    rw [M.bind_ok (h st hst), M.bind_ok (hi st hst)]
    show (if (i : Int) < 0 then M.throw unsupported else M.get .indexError (s[(i : Int).toNat]?.map fun c => Val.str [c])) st = _
    rw [if_neg (by omega), Int.toNat_natCast, hc]
    rfl
  unfold ev eval
  exact M.bind_ok h1

theorem gives_len_str {C : Call} {bs : List (Ident × Val)} {e : Expr} {s : List Int} (h : Gives C bs e (.str s)) :
    Gives C bs (.call I.len [e] []) (.int s.length) := fun st hst => by
  unfold ev eval
  rw [M.bind_ok (args_one h hst)]
  rfl

/-- The body of the loop (/repo/opendis/dis7.py:1224-1227). -/
def textBody : List Stmt :=
  [.ite (.cmp .lt (.name I.idx) (.call I.len [.name I.new_str] []))
    [.assign (.index (.attr (.name I.self) I.characters) (.name I.idx)) (.prim .ord (.index (.name I.new_str) (.name I.idx)))]
    [.assign (.index (.attr (.name I.self) I.characters) (.name I.idx)) (.int 0)]]

theorem exs_single {C : Call} {a : Stmt} {st : St} {r : Except PyErr (Option Val) × St} (h : ex C a st = r) :
    exs C [a] st = r := by
  unfold exs execs
  show (M.bind (ex C a) _) st = _
  obtain ⟨v, st'⟩ := r
  cases v with
  | error e => exact M.bind_error h
  | ok v =>
    refine (M.bind_ok h).trans ?_
    cases v <;> rfl

theorem text_step {C : Call} (x : Dis.EntityMarking) (i : Nat) (s : List Int) (io : Streams) :
    exs C textBody ⟨textVars x i s, io⟩ =
      if i < x.characters.length then (.ok none, ⟨textVars { x with characters := x.characters.set i (s.getD i 0) } i s, io⟩)
      else (.error .indexError, ⟨textVars x i s, io⟩) := by
  refine exs_single ?_
  have hs : Gives C (textVars x i s) (.name I.new_str) (.str s) := gives_name rfl
  have hi : Gives C (textVars x i s) (.name I.idx) (.int i) := gives_name rfl
  have hc := gives_cmp (op := .lt) (w := .bool (decide (i < s.length))) hi (gives_len_str hs) (fun _ => by
    show (Except.ok (Val.bool (decide ((i : Int) < (s.length : Int)))), _) = _
    simp only [Int.ofNat_lt])
  refine (exec_truth (hc _ textVars_env) (q := decide (i < s.length)) rfl).trans ?_
  by_cases hl : i < s.length
  · rw [decide_eq_true hl, List.getD_eq_getElem?_getD, List.getElem?_eq_getElem hl]
    exact exs_single (put_char (gives_char hs hi (List.getElem?_eq_getElem hl)))
  · rw [decide_eq_false hl, List.getD_eq_getElem?_getD, List.getElem?_eq_none (by omega)]
    exact exs_single (put_char gives_int)

/-- The characters after the positions `i`, …, `i + k - 1` have been set. -/
def written (s : List Int) (i k : Nat) (l : List Int) : List Int :=
  l.mapIdx fun j c => if i ≤ j ∧ j < i + k then s.getD j 0 else c

theorem written_zero (s : List Int) (i : Nat) (l : List Int) : written s i 0 l = l := by
  unfold written
  refine List.ext_getElem (by simp) fun j h1 h2 => ?_
  rw [List.getElem_mapIdx, if_neg (by omega)]

theorem written_succ {s : List Int} {i k : Nat} {l : List Int} :
    written s (i + 1) k (l.set i (s.getD i 0)) = written s i (k + 1) l := by
  unfold written
  refine List.ext_getElem (by simp) fun j h1 h2 => ?_
  rw [List.getElem_mapIdx, List.getElem_mapIdx, List.getElem_set]
  by_cases hj : i = j
  · subst hj; rw [if_neg (by omega), if_pos rfl, if_pos (by omega)]
  · rw [if_neg hj]
    by_cases h : i + 1 ≤ j ∧ j < i + 1 + k
    · rw [if_pos h, if_pos (by omega)]
    · rw [if_neg h, if_neg (by omega)]

theorem written_beyond {s : List Int} {i k : Nat} {l : List Int} (h : l.length ≤ i) : written s i k l = l := by
  unfold written
  refine List.ext_getElem (by simp) fun j h1 h2 => ?_
  rw [List.getElem_mapIdx, if_neg (by omega)]

theorem text_loop {C : Call} (s : List Int) (io : Streams) (k : Nat) : ∀ (i : Nat) (x : Dis.EntityMarking) (L : List (Ident × Val)),
    (∀ j : Nat, put I.idx (.int j) L = textVars x j s) → look I.self L = some (EntityMarking.enc x) →
    ∃ L', loop I.idx (exs C textBody) ((List.range' i k).map fun (j : Nat) => .int (j : Int)) ⟨L, io⟩ =
        (if k = 0 ∨ i + k ≤ x.characters.length then .ok none else .error .indexError, ⟨L', io⟩) ∧
      look I.self L' = some (EntityMarking.enc { x with characters := written s i k x.characters }) := by
  induction k with
  | zero =>
    intro i x L _ hL
    refine ⟨L, ?_, by rw [written_zero]; exact hL⟩
    rw [if_pos (.inl rfl)]
    rfl
  | succ k ih =>
    intro i x L hp hL
    rw [List.range'_succ, List.map_cons]
    unfold loop
    have h0 : M.setVar I.idx (.int (i : Int)) ⟨L, io⟩ = (.ok (), ⟨textVars x i s, io⟩) := by
      show (Except.ok (), (⟨put I.idx (.int (i : Int)) L, io⟩ : St)) = _
      rw [hp]
    by_cases hi : i < x.characters.length
    · have h1 := (text_step (C := C) x i s io).trans (if_pos hi)
      obtain ⟨L', h2, h3⟩ := ih (i + 1) { x with characters := x.characters.set i (s.getD i 0) }
        (textVars { x with characters := x.characters.set i (s.getD i 0) } i s) (fun _ => rfl) rfl
      refine ⟨L', ?_, ?_⟩
      · refine (M.bind_ok h0).trans ((M.bind_ok h1).trans (h2.trans ?_))
        congr 1
        simp only [List.length_set]
        by_cases hk : k = 0
        · rw [if_pos (.inl hk), if_pos (by omega)]
        · by_cases hle : i + (k + 1) ≤ x.characters.length
          · rw [if_pos (.inr (by omega)), if_pos (.inr hle)]
          · rw [if_neg (by omega), if_neg (by omega)]
      · rw [h3]
        simp only [written_succ]
    · have h1 := (text_step (C := C) x i s io).trans (if_neg hi)
      refine ⟨textVars x i s, ?_, ?_⟩
      · refine (M.bind_ok h0).trans ((M.bind_error h1).trans ?_)
        rw [if_neg (by omega)]
      · rw [written_beyond (by omega)]
        rfl

/-- `setString` (/repo/opendis/dis7.py:1222-1227). -/
theorem setString_runs (n : Nat) (x : Dis.EntityMarking) (s : List Int) (io : Streams) :
    run (n + 1) I.EntityMarking I.setString (EntityMarking.enc x) [.str s] [] io =
      (if 11 ≤ x.characters.length then .ok .none else .error .indexError,
        EntityMarking.enc { x with characters := written s 0 11 x.characters }, io) := by
  obtain ⟨L', h1, h2⟩ := text_loop (C := run n) s io 11 0 x (start I.EntityMarking (EntityMarking.enc x) [(I.new_str, .str s)])
    (fun _ => rfl) rfl
  have hr : Gives (run n) (start I.EntityMarking (EntityMarking.enc x) [(I.new_str, .str s)]) (.call I.range [.int 0, .int 11] [])
      (.list ((List.range (11 : Int).toNat).map fun (k : Nat) => .int (k : Int))) := gives_range0 gives_int
  have henv : Env (start I.EntityMarking (EntityMarking.enc x) [(I.new_str, .str s)])
      ⟨start I.EntityMarking (EntityMarking.enc x) [(I.new_str, .str s)], io⟩ := by
    refine ⟨fun _ _ h => h, fun y hy => ?_⟩
    have h1 : ∀ z, isClass z = false → Nat.beq z y = false := fun z hz => by
      cases e : Nat.beq z y with
      | false => rfl
      | true => rw [Nat.eq_of_beq_eq_true e, hy] at hz; cases hz
    show look y [(I.self, _), (I.__class__, _), (I.new_str, _)] = none
    simp only [look, h1 I.self (by decide +kernel), h1 I.__class__ (by decide +kernel), h1 I.new_str (by decide +kernel)]
  have hb : exs (run n) EntityMarking.setString.body ⟨start I.EntityMarking (EntityMarking.enc x) [(I.new_str, .str s)], io⟩
      = (if 11 ≤ x.characters.length then .ok none else .error .indexError, ⟨L', io⟩) := by
    refine exs_single ?_
    unfold ex exec
    refine (M.bind_ok (hr _ henv)).trans ?_
    have h3 : ((List.range (11 : Int).toNat).map fun (k : Nat) => Val.int (k : Int))
        = ((List.range' 0 11).map fun (j : Nat) => Val.int (j : Int)) := by rw [List.range_eq_range']; rfl
    rw [h3]
    refine (M.bind_ok (a := (List.range' 0 11).map fun (j : Nat) => Val.int (j : Int)) rfl).trans (h1.trans ?_)
    simp
  refine (run_method (d := I.EntityMarking) (f := EntityMarking.setString) rfl rfl hb h2).trans ?_
  split <;> rfl

theorem filter_ints (l : List Int) : (l.map Val.int).filter truth = (l.filter fun c => c ≠ 0).map .int := by
  induction l with
  | nil => rfl
  | cons c l ih =>
    by_cases hc : c = 0
    · subst hc; simpa [truth] using ih
    · have : truth (.int c) = true := by simp [truth, hc]
      rw [List.map_cons, List.filter_cons_of_pos this, List.filter_cons_of_pos (by simpa using hc), ih, List.map_cons]

theorem integers_ints (l : List Int) : integers (l.map Val.int) = some l := by
  induction l with
  | nil => rfl
  | cons c l ih => simp [integers, ih, asInt]

/-- `charactersString` (/repo/opendis/dis7.py:1230-1231). -/
theorem charactersString_runs (n : Nat) (x : Dis.EntityMarking) (io : Streams) :
    run (n + 1) I.EntityMarking I.charactersString (EntityMarking.enc x) [] [] io =
      (x.charactersString.map .str, EntityMarking.enc x, io) := by
  have h1 : ev (run n) (.attr (.name I.self) I.characters) ⟨start I.EntityMarking (EntityMarking.enc x) [], io⟩
      = (.ok (.list (x.characters.map .int)), ⟨start I.EntityMarking (EntityMarking.enc x) [], io⟩) :=
    (gives_attr (gives_name rfl) (plain rfl) rfl : Gives (run n) (start I.EntityMarking (EntityMarking.enc x) []) _ _) _ start_env0
  have h2 : ev (run n) (.prim .filter (.attr (.name I.self) I.characters)) ⟨start I.EntityMarking (EntityMarking.enc x) [], io⟩
      = (.ok (.list ((x.characters.filter fun c => c ≠ 0).map .int)), ⟨start I.EntityMarking (EntityMarking.enc x) [], io⟩) := by
    unfold ev eval
    refine (M.bind_ok h1).trans ?_
    show (Except.ok (Val.list ((x.characters.map Val.int).filter truth)), _) = _
    rw [filter_ints]
  have h3 : ev (run n) (.prim .bytes (.prim .filter (.attr (.name I.self) I.characters)))
      ⟨start I.EntityMarking (EntityMarking.enc x) [], io⟩
      = ((toBytes (x.characters.filter fun c => c ≠ 0)).map .bytes, ⟨start I.EntityMarking (EntityMarking.enc x) [], io⟩) := by
    unfold ev eval
    refine (M.bind_ok h2).trans ?_
    unfold primitive
    simp only [integers_ints]
    rfl
  have h4 : ev (run n) (.prim .decode (.prim .bytes (.prim .filter (.attr (.name I.self) I.characters))))
      ⟨start I.EntityMarking (EntityMarking.enc x) [], io⟩
      = (x.charactersString.map .str, ⟨start I.EntityMarking (EntityMarking.enc x) [], io⟩) := by
    unfold ev eval Dis.EntityMarking.charactersString
    cases ht : toBytes (x.characters.filter fun c => c ≠ 0) with
    | error e => rw [ht] at h3; exact M.bind_error h3
    | ok b => rw [ht] at h3; exact (M.bind_ok h3).trans rfl
  have hb : exs (run n) EntityMarking.charactersString.body ⟨start I.EntityMarking (EntityMarking.enc x) [], io⟩
      = ((x.charactersString.map Val.str).map some, ⟨start I.EntityMarking (EntityMarking.enc x) [], io⟩) := by
    refine exs_single ?_
    unfold ex exec
    cases hc : x.charactersString with
    | error e => rw [hc] at h4; exact M.bind_error h4
    | ok b => rw [hc] at h4; exact (M.bind_ok h4).trans rfl
  refine (run_method (d := I.EntityMarking) (f := EntityMarking.charactersString) rfl rfl hb rfl).trans ?_
  cases x.charactersString <;> rfl

end Dis.Src
