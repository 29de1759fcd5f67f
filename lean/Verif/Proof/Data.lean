import Verif.Proof.Text
import Verif.Proof.LayoutPdus5
import Verif.Proof.Streams

/-! # Lemmas about byte lists on the wire -/

namespace Dis

theorem Slot.stream_emits_append {a c : List Slot} {b : Bytes} :
    (Slot.stream (a ++ c)).Emits b ↔
      ∃ b1 b2, (Slot.stream a).Emits b1 ∧ (Slot.stream c).Emits b2 ∧ b = b1 ++ b2 := by
  induction a generalizing b with
  | nil =>
    constructor
    · intro h; exact ⟨[], b, ⟨rfl, (), rfl⟩, h, rfl⟩
    · rintro ⟨b1, b2, ⟨h1, -⟩, h2, rfl⟩
      cases h1
      exact h2
  | cons s rest ih =>
    simp only [List.cons_append, Slot.stream]
    cases hs : s.encode with
    | error e =>
      constructor
      · rintro ⟨-, a, h⟩; cases h
      · rintro ⟨b1, b2, ⟨-, a, h⟩, -⟩; cases h
    | ok p =>
      constructor
      · rintro ⟨h1, u, h2⟩
        obtain ⟨c1, c2, h3, h4, h5⟩ := ih.1 ⟨rfl, u, h2⟩
        refine ⟨p ++ c1, c2, ⟨?_, h3.2⟩, h4, ?_⟩
        · show p ++ (Slot.stream rest).out = _; rw [h3.1]
        · rw [← h1]; show p ++ _ = _; rw [h5, List.append_assoc]
      · rintro ⟨b1, b2, ⟨h1, u, h2⟩, h3, rfl⟩
        obtain ⟨h5, h6⟩ := ih.2 ⟨_, b2, ⟨rfl, u, h2⟩, h3, rfl⟩
        refine ⟨?_, h6⟩
        rw [← h1]
        show p ++ _ = (p ++ _) ++ _
        rw [h5, List.append_assoc]

theorem Slot.stream_emits_one {s : Slot} {b : Bytes} :
    (Slot.stream [s]).Emits b ↔ s.encode = .ok b := by
  simp only [Slot.stream]
  cases hs : s.encode with
  | error e =>
    constructor
    · rintro ⟨-, a, h⟩; cases h
    · intro h; cases h
  | ok p =>
    constructor
    · rintro ⟨h, -⟩; rw [← h]; simp
    · intro h; cases h; exact ⟨by simp, (), rfl⟩

theorem u8_encode {v : Int} {b : Bytes} (h : (Slot.u8 v).encode = .ok b) :
    ∃ x : UInt8, b = [x] ∧ (x.toNat : Int) = v := by
  simp only [Slot.encode] at h
  split at h
  · rename_i hv
    cases h
    refine ⟨UInt8.ofNat v.toNat, ?_, ?_⟩
    · simp only [digits, List.range_succ, List.range_zero, List.nil_append, List.map_cons, List.map_nil]
      congr 2
      simp; omega
    · rw [UInt8.toNat_ofNat']; omega
  · cases h

theorem u32_encode {v : Int} {b : Bytes} (h : (Slot.u32 v).encode = .ok b) : b = digits 4 v := by
  simp only [Slot.encode] at h
  split at h
  · cases h; rfl
  · cases h

/-- The bytes of the first `n` elements of a list. -/
theorem stream_bytes {l : List Int} {n : Nat} {b : Bytes}
    (h : (Slot.stream ((List.range n).map fun i => Slot.orFail .indexError Slot.u8 l[i]?)).Emits b) :
    (b.map fun x => (x.toNat : Int)) = l.take n ∧ b.length = n := by
  induction n generalizing b with
  | zero => obtain ⟨h, -⟩ := h; rw [← h]; exact ⟨rfl, rfl⟩
  | succ n ih =>
    rw [List.range_succ, List.map_append, Slot.stream_emits_append] at h
    obtain ⟨b1, b2, h1, h2, rfl⟩ := h
    obtain ⟨i1, i2⟩ := ih h1
    rw [List.map_cons, List.map_nil, Slot.stream_emits_one] at h2
    cases hl : l[n]? with
    | none => rw [hl] at h2; cases h2
    | some v =>
      rw [hl] at h2
      obtain ⟨x, rfl, hx⟩ := u8_encode h2
      refine ⟨?_, by simp [i2]⟩
      rw [List.map_append, i1, List.take_add_one, hl, List.map_cons, List.map_nil, hx]
      rfl

theorem stream_zeros {n : Nat} {b : Bytes}
    (h : (Slot.stream ((List.range n).map fun _ => Slot.u8 0)).Emits b) : b = List.replicate n 0 := by
  induction n generalizing b with
  | zero => obtain ⟨h, -⟩ := h; rw [← h]; rfl
  | succ n ih =>
    rw [List.range_succ, List.map_append, Slot.stream_emits_append] at h
    obtain ⟨b1, b2, h1, h2, rfl⟩ := h
    rw [ih h1, List.replicate_succ']
    rw [List.map_cons, List.map_nil, Slot.stream_emits_one] at h2
    obtain ⟨x, rfl, hx⟩ := u8_encode h2
    congr 2
    apply UInt8.toNat.inj
    exact Int.ofNat.inj hx

theorem reads_byte (x : UInt8) : Reads read_unsigned_byte [x] (x.toNat : Int) := by
  refine reads_readFixed rfl ?_
  simp [unpackU, beNat]

theorem reads_all_bytes (b : Bytes) (n : Nat) (h : b.length = n) :
    Reads (R.times n read_unsigned_byte) b (b.map fun x => (x.toNat : Int)) := by
  subst h
  induction b with
  | nil => exact Reads.pure _
  | cons x xs ih =>
    show Reads (R.times (xs.length + 1) _) ([x] ++ xs) _
    exact Reads.bind (reads_byte x) (Reads.map ih _)

/-! ## Exceptions of integer fields -/

theorem stream_res_append {a c : List Slot} (h : (Slot.stream a).Ok) :
    (Slot.stream (a ++ c)).res = (Slot.stream c).res := by
  induction a with
  | nil => rfl
  | cons s rest ih =>
    obtain ⟨u, h⟩ := h
    simp only [List.cons_append, Slot.stream] at h ⊢
    cases hs : s.encode with
    | error e => rw [hs] at h; cases h
    | ok p => rw [hs] at h; exact ih ⟨u, h⟩

theorem encode_u8 {v : Int} (h : U8 v) : ∃ b, (Slot.u8 v).encode = .ok b := by
  simp only [Slot.encode]
  exact ⟨_, if_pos ⟨h.1, by have := h.2; omega⟩⟩

theorem encode_u32 {v : Int} (h : U32 v) : ∃ b, (Slot.u32 v).encode = .ok b := by
  simp only [Slot.encode]
  exact ⟨_, if_pos ⟨h.1, by have := h.2; omega⟩⟩

/-- A list written beyond its end. -/
theorem stream_beyond {l : List Int} {n : Nat} {post : List Slot} (hl : ∀ x ∈ l, U8 x)
    (hn : l.length < n) :
    (Slot.stream (((List.range n).map fun i => Slot.orFail .indexError Slot.u8 l[i]?) ++ post)).res
      = .error .indexError := by
  have key : ∀ k, k ≤ l.length →
      (Slot.stream ((List.range k).map fun i => Slot.orFail .indexError Slot.u8 l[i]?)).Ok := by
    intro k
    induction k with
    | zero => intro _; exact ⟨(), rfl⟩
    | succ k ih =>
      intro hk
      rw [List.range_succ, List.map_append]
      obtain ⟨u, hu⟩ := ih (by omega)
      rw [List.map_cons, List.map_nil, List.getElem?_eq_getElem (show k < l.length by omega)]
      obtain ⟨b, hb⟩ := encode_u8 (hl l[k] (List.getElem_mem _))
      have h1 := stream_res_append (c := [Slot.orFail .indexError Slot.u8 (some l[k])]) ⟨u, hu⟩
      refine ⟨(), ?_⟩
      rw [h1]
      simp only [Slot.stream, Slot.orFail, hb]
  obtain ⟨m, rfl⟩ : ∃ m, n = l.length + (m + 1) := ⟨n - l.length - 1, by omega⟩
  rw [List.range_add, List.map_append, List.append_assoc, stream_res_append (key _ (Nat.le_refl _)),
    List.range_succ_eq_map, List.map_cons, List.map_cons, Nat.add_zero,
    List.getElem?_eq_none (Nat.le_refl _)]
  rfl

/-- Writing this slot can only fail with `struct.error`. -/
def Slot.Plain (s : Slot) : Prop := ∃ n v, s = .uint n v

theorem stream_plain {sl : List Slot} (h : ∀ s ∈ sl, s.Plain) (hn : ¬ (Slot.stream sl).Ok) :
    (Slot.stream sl).res = .error .structError := by
  induction sl with
  | nil => exact absurd ⟨(), rfl⟩ hn
  | cons s rest ih =>
    obtain ⟨n, v, rfl⟩ := h s (List.mem_cons_self ..)
    simp only [Slot.stream, Slot.encode] at hn ⊢
    by_cases hv : 0 ≤ v ∧ v < 256 ^ n
    · rw [if_pos hv] at hn ⊢
      exact ih (fun s hs => h s (List.mem_cons_of_mem _ hs)) hn
    · rw [if_neg hv]

theorem SignalPdu.wire_plain (o : SignalPdu) : ∀ s ∈ o.wire, s.Plain := by
  intro s hs
  simp only [SignalPdu.wire, RadioCommunicationsFamilyPdu.wire, Pdu.wire, PduSuperclass.wire,
    EntityIdentifier.wire, SimulationAddress.wire, List.flatten_cons, List.flatten_nil, List.mem_append, List.mem_cons,
    List.not_mem_nil, or_false, List.mem_map] at hs
  unfold Slot.Plain
  rcases hs with hs | hs
  all_goals grind

end Dis
