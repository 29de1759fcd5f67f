import Verif.Spec.Factory
import Verif.Proof.AnyPdu
import Verif.Proof.Streams

/-! # Lemmas about messages and the factory -/

namespace Dis

theorem fieldAt_append {pre x post : Bytes} {off n : Nat} (h1 : pre.length = off) (h2 : x.length = n) :
    fieldAt (pre ++ (x ++ post)) off n = beValue x := by
  unfold fieldAt
  rw [← h1, List.drop_left, ← h2, List.take_left]

theorem fieldAt_byte {b : Bytes} {i : Nat} (h : i < b.length) : fieldAt b i 1 = b[i].toNat := by
  unfold fieldAt
  rw [List.drop_eq_getElem_cons h, List.take_succ_cons, List.take_zero]
  show 256 * 0 + (b[i].toNat : Int) = _
  omega

theorem packU_field {n : Nat} {v : Int} {b : Bytes} (h : packU n v = .ok b) :
    b.length = n ∧ beValue b = v := by
  have h1 := unpackU_packU h
  refine ⟨h1.1, ?_⟩
  have h2 := h1.2
  unfold unpackU at h2
  rw [if_pos h1.1] at h2
  rw [beValue_eq]
  exact Except.ok.inj h2

/-! ## Readers of a fixed number of bytes -/

/-- The reader consumes `n` bytes whatever they are, and raises `struct.error` if there are fewer. -/
def Fix {α} (r : R α) (n : Nat) : Prop :=
  ∀ d p, p ≤ d.length → (d.length < p + n → ∃ s, r ⟨d, p⟩ = (.error .structError, s)) ∧
    (p + n ≤ d.length → ∃ a, r ⟨d, p⟩ = (.ok a, ⟨d, p + n⟩))

/-- Like `Fix`, and the reader then returns if `P` holds and raises `x` if not. -/
def Guarded {α} (x : PyErr) (r : R α) (n : Nat) (P : Bytes → Nat → Prop) : Prop :=
  ∀ d p, p ≤ d.length → (d.length < p + n → ∃ s, r ⟨d, p⟩ = (.error .structError, s)) ∧
    (p + n ≤ d.length → (P d p → ∃ a s, r ⟨d, p⟩ = (.ok a, s)) ∧
      (¬ P d p → ∃ s, r ⟨d, p⟩ = (.error x, s)))

theorem Fix.pure {α} (a : α) : Fix (pure a) 0 := by
  intro d p hp
  exact ⟨fun h => by omega, fun _ => ⟨a, rfl⟩⟩

theorem Fix.bind {α β} {r : R α} {k : α → R β} {n m} (h1 : Fix r n) (h2 : ∀ a, Fix (k a) m) :
    Fix (r >>= k) (n + m) := by
  intro d p hp
  obtain ⟨ha, hb⟩ := h1 d p hp
  by_cases hn : d.length < p + n
  · obtain ⟨s, hs⟩ := ha hn
    exact ⟨fun _ => ⟨s, R.bind_error hs⟩, fun h => by omega⟩
  · obtain ⟨a, hs⟩ := hb (by omega)
    rw [R.bind_ok hs]
    have := h2 a d (p + n) (by omega)
    rwa [Nat.add_assoc] at this

theorem Fix.of_eq {α} {r : R α} {n m} (h : Fix r n) (e : n = m) : Fix r m := e ▸ h

theorem Guarded.pure {α} (x) (a : α) : Guarded x (pure a) 0 fun _ _ => True := by
  intro d p hp
  exact ⟨fun h => by omega, fun _ => ⟨fun _ => ⟨a, _, rfl⟩, fun h => absurd trivial h⟩⟩

theorem Guarded.throw {α} (x) : Guarded x (R.throw x : R α) 0 fun _ _ => False := by
  intro d p hp
  exact ⟨fun h => by omega, fun _ => ⟨False.elim, fun _ => ⟨_, rfl⟩⟩⟩

theorem Guarded.bind {α β x} {r : R α} {k : α → R β} {n m P} (h1 : Fix r n)
    (h2 : ∀ a, Guarded x (k a) m P) : Guarded x (r >>= k) (n + m) fun d p => P d (p + n) := by
  intro d p hp
  obtain ⟨ha, hb⟩ := h1 d p hp
  by_cases hn : d.length < p + n
  · obtain ⟨s, hs⟩ := ha hn
    exact ⟨fun _ => ⟨s, R.bind_error hs⟩, fun h => by omega⟩
  · obtain ⟨a, hs⟩ := hb (by omega)
    rw [R.bind_ok hs]
    have := h2 a d (p + n) (by omega)
    rwa [Nat.add_assoc] at this

theorem Guarded.first {α β x} {r : R α} {k : α → R β} {n P} (h1 : Guarded x r n P)
    (h2 : ∀ a s, ∃ b s', k a s = (.ok b, s')) : Guarded x (r >>= k) n P := by
  intro d p hp
  obtain ⟨ha, hb⟩ := h1 d p hp
  refine ⟨fun h => ?_, fun h => ⟨fun hP => ?_, fun hP => ?_⟩⟩
  · obtain ⟨s, hs⟩ := ha h; exact ⟨s, R.bind_error hs⟩
  · obtain ⟨a, s, hs⟩ := (hb h).1 hP
    rw [R.bind_ok hs]; exact h2 a s
  · obtain ⟨s, hs⟩ := (hb h).2 hP; exact ⟨s, R.bind_error hs⟩

theorem Guarded.of_eq {α x} {r : R α} {n m P Q} (h : Guarded x r n P) (e : n = m)
    (hP : ∀ d p, P d p ↔ Q d p) : Guarded x r m Q := by
  subst e
  intro d p hp
  have := h d p hp
  rwa [hP] at this

theorem fix_readFixed {α} {n : Nat} (hn : n ≠ 0) {un : Bytes → Except PyErr α}
    (h1 : ∀ b v, un b = .ok v → b.length = n) (h2 : ∀ b e, un b = .error e → e = .structError)
    (h3 : ∀ b, b.length = n → ∃ v, un b = .ok v) : Fix (R.readFixed n un) n := by
  intro d p hp
  refine ⟨fun h => ?_, fun h => ?_⟩
  · have := (readFixed_short hn h1 h2 (s := ⟨d, p⟩) h).1
    rcases hr : R.readFixed n un ⟨d, p⟩ with ⟨y, s⟩
    rw [hr] at this
    simp only at this
    exact ⟨s, by rw [this]⟩
  · obtain ⟨v, hv⟩ := h3 ((d.drop p).take n) (by simp; omega)
    have hl : ((d.drop p).take n).length = n := by simp; omega
    have := reads_readFixed hl hv (d.take p) ((d.drop p).drop n)
    rw [List.append_assoc, List.take_append_drop, List.take_append_drop, List.length_take,
      Nat.min_eq_left hp, hl] at this
    exact ⟨v, this⟩

theorem unpackU_total {n : Nat} (b : Bytes) (h : b.length = n) : ∃ v, unpackU n b = .ok v :=
  ⟨_, by unfold unpackU; rw [if_pos h]⟩

theorem unpackS_total {n : Nat} (b : Bytes) (h : b.length = n) : ∃ v, unpackS n b = .ok v :=
  ⟨_, by unfold unpackS; rw [if_pos h]⟩

theorem fix_U {n : Nat} (hn : n ≠ 0) : Fix (R.readFixed n (unpackU n)) n :=
  fix_readFixed hn (fun _ _ => unpackU_len) (fun _ _ => unpackU_err) unpackU_total

theorem fix_S {n : Nat} (hn : n ≠ 0) : Fix (R.readFixed n (unpackS n)) n :=
  fix_readFixed hn (fun _ _ => unpackS_len) (fun _ _ => unpackS_err) unpackS_total

theorem fix_unsigned_byte : Fix read_unsigned_byte 1 := fix_U (by decide)
theorem fix_byte : Fix read_byte 1 := fix_S (by decide)
theorem fix_unsigned_short : Fix read_unsigned_short 2 := fix_U (by decide)
theorem fix_short : Fix read_short 2 := fix_S (by decide)
theorem fix_unsigned_int : Fix read_unsigned_int 4 := fix_U (by decide)

theorem readU_value {n : Nat} {d : Bytes} {p : Nat} {v : Int} {s}
    (h : R.readFixed n (unpackU n) ⟨d, p⟩ = (.ok v, s)) : v = fieldAt d p n := by
  rw [readFixed_long] at h
  injection h with h _
  unfold unpackU at h
  split at h
  · injection h with h
    rw [fieldAt, beValue_eq]; exact h.symm
  · cases h

/-- A count field that the rest of the reader depends on. -/
theorem Guarded.count {β x} {n m : Nat} {k : Int → R β} {Q : Int → Bytes → Nat → Prop} (hn : n ≠ 0)
    (h2 : ∀ v, Guarded x (k v) m (Q v)) :
    Guarded x (R.readFixed n (unpackU n) >>= k) (n + m)
      fun d p => Q (fieldAt d p n) d (p + n) := by
  intro d p hp
  obtain ⟨ha, hb⟩ := fix_U hn d p hp
  by_cases hlt : d.length < p + n
  · obtain ⟨s, hs⟩ := ha hlt
    exact ⟨fun _ => ⟨s, R.bind_error hs⟩, fun h => by omega⟩
  · obtain ⟨a, hs⟩ := hb (by omega)
    have hv := readU_value hs
    rw [R.bind_ok hs]
    have := h2 a d (p + n) (by omega)
    rw [hv] at this
    rw [hv]
    rwa [Nat.add_assoc] at this

/-- A loop whose body raises. -/
theorem Guarded.null {α β x m} {c : Nat} {k : List α → R β} {P} (h : Guarded x (k []) m P)
    (hm : m = 0) : Guarded x (R.times c (R.throw x) >>= k) m fun d p => c = 0 ∧ P d p := by
  intro d p hp
  obtain ⟨ha, hb⟩ := h d p hp
  refine ⟨fun h => by omega, fun h => ⟨?_, fun hP => ?_⟩⟩
  · rintro ⟨rfl, hP⟩
    exact (hb h).1 hP
  · cases c with
    | zero => exact (hb h).2 fun h' => hP ⟨rfl, h'⟩
    | succ c => exact ⟨_, rfl⟩

theorem Guarded.nullLast {α β x} {c : Nat} {f : List α → β} :
    Guarded x (R.times c (R.throw x) >>= fun l => Pure.pure (f l)) 0 fun _ _ => c = 0 ∧ True :=
  Guarded.null (Guarded.pure _ _) rfl

/-! ## The factory -/

theorem getPdu_short {d : Bytes} {p : Nat} (h : d.length < 3) :
    (getPdu ⟨d, p⟩).1 = .error .structError := by
  have := (readFixed_short (n := 1) (by decide) (un := unpackS 1) (fun _ _ => unpackS_len)
    (fun _ _ => unpackS_err) (s := ⟨d, 2⟩) (by simp; omega)).1
  unfold getPdu
  have e : (R.seek 2 : R Unit) ⟨d, p⟩ = (.ok (), ⟨d, 2⟩) := rfl
  rw [R.bind_ok e]
  rcases hr : read_byte ⟨d, 2⟩ with ⟨y, s⟩
  have h' : y = .error .structError := by
    have h2 := congrArg Prod.fst hr
    exact h2.symm.trans this
  subst h'
  rw [R.bind_error hr]

/-- The type byte as `read_byte` sees it. -/
def signedByte (t : UInt8) : Int := if t.toNat < 128 then t.toNat else (t.toNat : Int) - 256

theorem read_byte_2 {d : Bytes} {t : UInt8} (h : d[2]? = some t) :
    read_byte ⟨d, 2⟩ = (.ok (signedByte t), ⟨d, 3⟩) := by
  have hl : 2 < d.length := by
    rcases Nat.lt_or_ge 2 d.length with h' | h'
    · exact h'
    · rw [List.getElem?_eq_none h'] at h; cases h
  have hd : (d.drop 2).take 1 = [t] := by
    rw [List.drop_eq_getElem_cons hl]
    rw [List.getElem?_eq_getElem hl] at h
    injection h with h
    simp [h]
  unfold read_byte
  have hu : unpackS 1 [t] = .ok (signedByte t) := by
    unfold unpackS signedByte
    rw [if_pos (show [t].length = 1 from rfl)]
    refine congrArg Except.ok ?_
    simp only [beNat, List.length_nil, Nat.pow_zero, Nat.mul_one, Nat.add_zero]
    rfl
  have := reads_readFixed (n := 1) (un := unpackS 1) (b := [t]) rfl hu (d.take 2) ((d.drop 2).drop 1)
  rw [← hd, List.append_assoc, List.take_append_drop, List.take_append_drop, List.length_take,
    Nat.min_eq_left (by omega)] at this
  rw [this]
  simp only [List.length_take, List.length_drop]
  rw [Nat.min_eq_left (by omega)]

/-- Reading the type as a signed byte does not matter: no type above 127 is registered. -/
theorem lookup_signed (t : UInt8) :
    PduTypeDecoders.lookup (signedByte t) = PduTypeDecoders.lookup (t.toNat : Int) := by
  have h : ∀ n : Fin 256, PduTypeDecoders.lookup (if n.val < 128 then (n.val : Int) else (n.val : Int) - 256) =
      PduTypeDecoders.lookup (n.val : Int) := by decide +kernel
  exact h ⟨t.toNat, t.toNat_lt⟩

theorem getPdu_run {d : Bytes} {p : Nat} {t : UInt8} (h : d[2]? = some t) :
    getPdu ⟨d, p⟩ = match PduTypeDecoders.lookup (t.toNat : Int) with
      | some c => (c.decode >>= fun q => pure (some q)) ⟨d, 0⟩
      | none => (.ok none, ⟨d, 0⟩) := by
  unfold getPdu
  have e : (R.seek 2 : R Unit) ⟨d, p⟩ = (.ok (), ⟨d, 2⟩) := rfl
  have e' : (R.seek 0 : R Unit) ⟨d, 3⟩ = (.ok (), ⟨d, 0⟩) := rfl
  rw [R.bind_ok e, R.bind_ok (read_byte_2 h), R.bind_ok e', lookup_signed]
  cases PduTypeDecoders.lookup (t.toNat : Int) <;> rfl

theorem createPdu_none {d : Bytes} {t : UInt8} (h : d[2]? = some t)
    (hc : PduTypeDecoders.lookup (t.toNat : Int) = none) : createPdu d = .ok none := by
  unfold createPdu
  rw [getPdu_run h, hc]

theorem createPdu_some {d : Bytes} {t : UInt8} {c : PduClass} (h : d[2]? = some t)
    (hc : PduTypeDecoders.lookup (t.toNat : Int) = some c) :
    createPdu d = (c.decode ⟨d, 0⟩).1.map some := by
  unfold createPdu
  rw [getPdu_run h, hc]
  simp only
  rcases hr : c.decode ⟨d, 0⟩ with ⟨x, s⟩
  cases x with
  | ok a => rw [R.bind_ok hr]; rfl
  | error e => rw [R.bind_error hr]; rfl

theorem Guarded.decodes {c : PduClass} {t : UInt8} {n : Nat} {P : Bytes → Nat → Prop} {A : Bytes → Prop}
    (hc : PduTypeDecoders.lookup (t.toNat : Int) = some c)
    (h : Guarded .nameError c.decode n P) (hA : ∀ d, ¬ A d ↔ P d 0) : DecodesOnlyEmpty t c n A := by
  intro d ht
  obtain ⟨h1, h2⟩ := h d 0 (by omega)
  rw [createPdu_some ht hc]
  refine ⟨fun hl => ?_, fun hl ha => ?_, fun hl ha => ?_⟩
  · obtain ⟨s, hs⟩ := h1 (by omega); rw [hs]; rfl
  · obtain ⟨s, hs⟩ := (h2 (by omega)).2 (fun hp => (hA d).2 hp ha); rw [hs]; rfl
  · obtain ⟨a, s, hs⟩ := (h2 (by omega)).1 ((hA d).1 ha)
    refine ⟨a, by rw [hs]; rfl, PduClass.decode_cls c _ _ _ hs⟩

/-! ## Parts of fixed size -/

theorem fix_header (s) : Fix (Pdu.parse s) 12 :=
  Fix.bind (Fix.bind fix_unsigned_byte fun _ => Fix.bind fix_unsigned_byte fun _ =>
    Fix.bind fix_unsigned_byte fun _ => Fix.bind fix_unsigned_byte fun _ =>
    Fix.bind fix_unsigned_int fun _ => Fix.bind fix_unsigned_short fun _ => Fix.pure _) fun _ =>
    Fix.bind fix_unsigned_byte fun _ => Fix.bind fix_unsigned_byte fun _ => Fix.pure _

theorem fix_address (s) : Fix (SimulationAddress.parse s) 4 :=
  Fix.bind fix_unsigned_short fun _ => Fix.bind fix_unsigned_short fun _ => Fix.pure _

theorem fix_entityID (s) : Fix (EntityIdentifier.parse s) 6 :=
  Fix.bind (fix_address _) fun _ => Fix.bind fix_unsigned_short fun _ => Fix.pure _

theorem fix_eventID (s) : Fix (EventIdentifier.parse s) 6 :=
  Fix.bind (fix_address _) fun _ => Fix.bind fix_unsigned_short fun _ => Fix.pure _

theorem fix_management (s) : Fix (SimulationManagementWithReliabilityFamilyPdu.parse s) 24 :=
  Fix.bind (fix_header _) fun _ => Fix.bind (fix_entityID _) fun _ =>
    Fix.bind (fix_entityID _) fun _ => Fix.pure _

end Dis
