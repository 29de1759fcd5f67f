import Verif.Proof.Catalog

/-!
# Every class of the catalogue has messages

Generated by `tools/gencatalog.py`.
-/

namespace Dis

/-- Zeros, with the count fields set to `n` elements. -/
def Codec.sampleBytes (c : Codec) (n : Nat) : Bytes :=
  c.counts.foldl (fun b f => b.set (f.offset + f.width - 1) (UInt8.ofNat (f.scale * n)))
    (List.replicate 400 0)

/-- The sample is accepted and the result can be serialized. -/
def Codec.sampleOk (c : Codec) (n : Nat) : Bool :=
  match c.parse c.fresh ⟨c.sampleBytes n, 0⟩ with
  | (.ok o, _) => (c.serialize o).res == .ok ()
  | _ => false

/-- Some input is accepted by `parse` and yields an object that `serialize` accepts. -/
def Codec.Inhabited (c : Codec) : Prop :=
  ∃ d o st, c.parse c.fresh ⟨d, 0⟩ = (.ok o, st) ∧ (c.serialize o).Ok

theorem Codec.inhabited_of_sample {c : Codec} {n : Nat} (h : c.sampleOk n = true) : c.Inhabited := by
  unfold Codec.sampleOk at h
  split at h
  · rename_i o st he
    exact ⟨_, o, st, he, (), by simpa using h⟩
  · cases h

theorem catalogCommon_inhabited : ∀ c ∈ catalogCommon, c.name ≠ "SilentAggregateSystem" → c.Inhabited := by
  unfold catalogCommon
  refine List.forall_mem_cons.2 ⟨fun _ => Codec.inhabited_of_sample (n := 1) (by decide +kernel), ?_⟩
  refine List.forall_mem_cons.2 ⟨fun _ => Codec.inhabited_of_sample (n := 1) (by decide +kernel), ?_⟩
  refine List.forall_mem_cons.2 ⟨fun _ => Codec.inhabited_of_sample (n := 1) (by decide +kernel), ?_⟩
  refine List.forall_mem_cons.2 ⟨fun _ => Codec.inhabited_of_sample (n := 1) (by decide +kernel), ?_⟩
  refine List.forall_mem_cons.2 ⟨fun _ => Codec.inhabited_of_sample (n := 1) (by decide +kernel), ?_⟩
  refine List.forall_mem_cons.2 ⟨fun _ => Codec.inhabited_of_sample (n := 1) (by decide +kernel), ?_⟩
  exact fun _ h => nomatch h

theorem catalogRecords1_inhabited : ∀ c ∈ catalogRecords1, c.name ≠ "SilentAggregateSystem" → c.Inhabited := by
  unfold catalogRecords1
  refine List.forall_mem_cons.2 ⟨fun _ => Codec.inhabited_of_sample (n := 1) (by decide +kernel), ?_⟩
  refine List.forall_mem_cons.2 ⟨fun _ => Codec.inhabited_of_sample (n := 1) (by decide +kernel), ?_⟩
  refine List.forall_mem_cons.2 ⟨fun _ => Codec.inhabited_of_sample (n := 1) (by decide +kernel), ?_⟩
  refine List.forall_mem_cons.2 ⟨fun _ => Codec.inhabited_of_sample (n := 1) (by decide +kernel), ?_⟩
  refine List.forall_mem_cons.2 ⟨fun _ => Codec.inhabited_of_sample (n := 1) (by decide +kernel), ?_⟩
  refine List.forall_mem_cons.2 ⟨fun _ => Codec.inhabited_of_sample (n := 1) (by decide +kernel), ?_⟩
  refine List.forall_mem_cons.2 ⟨fun _ => Codec.inhabited_of_sample (n := 1) (by decide +kernel), ?_⟩
  refine List.forall_mem_cons.2 ⟨fun _ => Codec.inhabited_of_sample (n := 1) (by decide +kernel), ?_⟩
  refine List.forall_mem_cons.2 ⟨fun _ => Codec.inhabited_of_sample (n := 1) (by decide +kernel), ?_⟩
  refine List.forall_mem_cons.2 ⟨fun _ => Codec.inhabited_of_sample (n := 1) (by decide +kernel), ?_⟩
  refine List.forall_mem_cons.2 ⟨fun _ => Codec.inhabited_of_sample (n := 1) (by decide +kernel), ?_⟩
  refine List.forall_mem_cons.2 ⟨fun _ => Codec.inhabited_of_sample (n := 1) (by decide +kernel), ?_⟩
  refine List.forall_mem_cons.2 ⟨fun _ => Codec.inhabited_of_sample (n := 1) (by decide +kernel), ?_⟩
  refine List.forall_mem_cons.2 ⟨fun _ => Codec.inhabited_of_sample (n := 1) (by decide +kernel), ?_⟩
  refine List.forall_mem_cons.2 ⟨fun _ => Codec.inhabited_of_sample (n := 1) (by decide +kernel), ?_⟩
  refine List.forall_mem_cons.2 ⟨fun _ => Codec.inhabited_of_sample (n := 1) (by decide +kernel), ?_⟩
  refine List.forall_mem_cons.2 ⟨fun _ => Codec.inhabited_of_sample (n := 1) (by decide +kernel), ?_⟩
  refine List.forall_mem_cons.2 ⟨fun _ => Codec.inhabited_of_sample (n := 1) (by decide +kernel), ?_⟩
  refine List.forall_mem_cons.2 ⟨fun _ => Codec.inhabited_of_sample (n := 1) (by decide +kernel), ?_⟩
  refine List.forall_mem_cons.2 ⟨fun _ => Codec.inhabited_of_sample (n := 1) (by decide +kernel), ?_⟩
  refine List.forall_mem_cons.2 ⟨fun _ => Codec.inhabited_of_sample (n := 1) (by decide +kernel), ?_⟩
  refine List.forall_mem_cons.2 ⟨fun _ => Codec.inhabited_of_sample (n := 1) (by decide +kernel), ?_⟩
  exact fun _ h => nomatch h

theorem catalogRecords2_inhabited : ∀ c ∈ catalogRecords2, c.name ≠ "SilentAggregateSystem" → c.Inhabited := by
  unfold catalogRecords2
  refine List.forall_mem_cons.2 ⟨fun _ => Codec.inhabited_of_sample (n := 1) (by decide +kernel), ?_⟩
  refine List.forall_mem_cons.2 ⟨fun _ => Codec.inhabited_of_sample (n := 1) (by decide +kernel), ?_⟩
  refine List.forall_mem_cons.2 ⟨fun _ => Codec.inhabited_of_sample (n := 1) (by decide +kernel), ?_⟩
  refine List.forall_mem_cons.2 ⟨fun _ => Codec.inhabited_of_sample (n := 1) (by decide +kernel), ?_⟩
  refine List.forall_mem_cons.2 ⟨fun _ => Codec.inhabited_of_sample (n := 1) (by decide +kernel), ?_⟩
  refine List.forall_mem_cons.2 ⟨fun _ => Codec.inhabited_of_sample (n := 1) (by decide +kernel), ?_⟩
  refine List.forall_mem_cons.2 ⟨fun _ => Codec.inhabited_of_sample (n := 1) (by decide +kernel), ?_⟩
  refine List.forall_mem_cons.2 ⟨fun _ => Codec.inhabited_of_sample (n := 1) (by decide +kernel), ?_⟩
  refine List.forall_mem_cons.2 ⟨fun _ => Codec.inhabited_of_sample (n := 1) (by decide +kernel), ?_⟩
  refine List.forall_mem_cons.2 ⟨fun _ => Codec.inhabited_of_sample (n := 1) (by decide +kernel), ?_⟩
  refine List.forall_mem_cons.2 ⟨fun _ => Codec.inhabited_of_sample (n := 1) (by decide +kernel), ?_⟩
  refine List.forall_mem_cons.2 ⟨fun _ => Codec.inhabited_of_sample (n := 1) (by decide +kernel), ?_⟩
  refine List.forall_mem_cons.2 ⟨fun _ => Codec.inhabited_of_sample (n := 1) (by decide +kernel), ?_⟩
  refine List.forall_mem_cons.2 ⟨fun _ => Codec.inhabited_of_sample (n := 1) (by decide +kernel), ?_⟩
  refine List.forall_mem_cons.2 ⟨fun _ => Codec.inhabited_of_sample (n := 1) (by decide +kernel), ?_⟩
  refine List.forall_mem_cons.2 ⟨fun _ => Codec.inhabited_of_sample (n := 1) (by decide +kernel), ?_⟩
  refine List.forall_mem_cons.2 ⟨fun _ => Codec.inhabited_of_sample (n := 1) (by decide +kernel), ?_⟩
  refine List.forall_mem_cons.2 ⟨fun _ => Codec.inhabited_of_sample (n := 1) (by decide +kernel), ?_⟩
  refine List.forall_mem_cons.2 ⟨fun _ => Codec.inhabited_of_sample (n := 1) (by decide +kernel), ?_⟩
  refine List.forall_mem_cons.2 ⟨fun _ => Codec.inhabited_of_sample (n := 1) (by decide +kernel), ?_⟩
  refine List.forall_mem_cons.2 ⟨fun _ => Codec.inhabited_of_sample (n := 1) (by decide +kernel), ?_⟩
  refine List.forall_mem_cons.2 ⟨fun _ => Codec.inhabited_of_sample (n := 1) (by decide +kernel), ?_⟩
  exact fun _ h => nomatch h

theorem catalogRecords3_inhabited : ∀ c ∈ catalogRecords3, c.name ≠ "SilentAggregateSystem" → c.Inhabited := by
  unfold catalogRecords3
  refine List.forall_mem_cons.2 ⟨fun _ => Codec.inhabited_of_sample (n := 1) (by decide +kernel), ?_⟩
  refine List.forall_mem_cons.2 ⟨fun _ => Codec.inhabited_of_sample (n := 1) (by decide +kernel), ?_⟩
  refine List.forall_mem_cons.2 ⟨fun _ => Codec.inhabited_of_sample (n := 1) (by decide +kernel), ?_⟩
  refine List.forall_mem_cons.2 ⟨fun _ => Codec.inhabited_of_sample (n := 1) (by decide +kernel), ?_⟩
  refine List.forall_mem_cons.2 ⟨fun _ => Codec.inhabited_of_sample (n := 1) (by decide +kernel), ?_⟩
  refine List.forall_mem_cons.2 ⟨fun _ => Codec.inhabited_of_sample (n := 1) (by decide +kernel), ?_⟩
  refine List.forall_mem_cons.2 ⟨fun _ => Codec.inhabited_of_sample (n := 1) (by decide +kernel), ?_⟩
  refine List.forall_mem_cons.2 ⟨fun _ => Codec.inhabited_of_sample (n := 1) (by decide +kernel), ?_⟩
  refine List.forall_mem_cons.2 ⟨fun _ => Codec.inhabited_of_sample (n := 1) (by decide +kernel), ?_⟩
  refine List.forall_mem_cons.2 ⟨fun _ => Codec.inhabited_of_sample (n := 1) (by decide +kernel), ?_⟩
  refine List.forall_mem_cons.2 ⟨fun _ => Codec.inhabited_of_sample (n := 1) (by decide +kernel), ?_⟩
  refine List.forall_mem_cons.2 ⟨fun _ => Codec.inhabited_of_sample (n := 1) (by decide +kernel), ?_⟩
  refine List.forall_mem_cons.2 ⟨fun _ => Codec.inhabited_of_sample (n := 1) (by decide +kernel), ?_⟩
  refine List.forall_mem_cons.2 ⟨fun _ => Codec.inhabited_of_sample (n := 1) (by decide +kernel), ?_⟩
  refine List.forall_mem_cons.2 ⟨fun _ => Codec.inhabited_of_sample (n := 1) (by decide +kernel), ?_⟩
  refine List.forall_mem_cons.2 ⟨fun _ => Codec.inhabited_of_sample (n := 1) (by decide +kernel), ?_⟩
  refine List.forall_mem_cons.2 ⟨fun _ => Codec.inhabited_of_sample (n := 1) (by decide +kernel), ?_⟩
  refine List.forall_mem_cons.2 ⟨fun _ => Codec.inhabited_of_sample (n := 0) (by decide +kernel), ?_⟩
  refine List.forall_mem_cons.2 ⟨fun _ => Codec.inhabited_of_sample (n := 1) (by decide +kernel), ?_⟩
  refine List.forall_mem_cons.2 ⟨fun _ => Codec.inhabited_of_sample (n := 0) (by decide +kernel), ?_⟩
  refine List.forall_mem_cons.2 ⟨fun h => absurd rfl h, ?_⟩
  refine List.forall_mem_cons.2 ⟨fun _ => Codec.inhabited_of_sample (n := 1) (by decide +kernel), ?_⟩
  exact fun _ h => nomatch h

theorem catalogRecords4_inhabited : ∀ c ∈ catalogRecords4, c.name ≠ "SilentAggregateSystem" → c.Inhabited := by
  unfold catalogRecords4
  refine List.forall_mem_cons.2 ⟨fun _ => Codec.inhabited_of_sample (n := 1) (by decide +kernel), ?_⟩
  refine List.forall_mem_cons.2 ⟨fun _ => Codec.inhabited_of_sample (n := 1) (by decide +kernel), ?_⟩
  refine List.forall_mem_cons.2 ⟨fun _ => Codec.inhabited_of_sample (n := 1) (by decide +kernel), ?_⟩
  refine List.forall_mem_cons.2 ⟨fun _ => Codec.inhabited_of_sample (n := 1) (by decide +kernel), ?_⟩
  refine List.forall_mem_cons.2 ⟨fun _ => Codec.inhabited_of_sample (n := 1) (by decide +kernel), ?_⟩
  refine List.forall_mem_cons.2 ⟨fun _ => Codec.inhabited_of_sample (n := 0) (by decide +kernel), ?_⟩
  refine List.forall_mem_cons.2 ⟨fun _ => Codec.inhabited_of_sample (n := 1) (by decide +kernel), ?_⟩
  refine List.forall_mem_cons.2 ⟨fun _ => Codec.inhabited_of_sample (n := 1) (by decide +kernel), ?_⟩
  refine List.forall_mem_cons.2 ⟨fun _ => Codec.inhabited_of_sample (n := 1) (by decide +kernel), ?_⟩
  refine List.forall_mem_cons.2 ⟨fun _ => Codec.inhabited_of_sample (n := 1) (by decide +kernel), ?_⟩
  refine List.forall_mem_cons.2 ⟨fun _ => Codec.inhabited_of_sample (n := 1) (by decide +kernel), ?_⟩
  refine List.forall_mem_cons.2 ⟨fun _ => Codec.inhabited_of_sample (n := 1) (by decide +kernel), ?_⟩
  refine List.forall_mem_cons.2 ⟨fun _ => Codec.inhabited_of_sample (n := 1) (by decide +kernel), ?_⟩
  refine List.forall_mem_cons.2 ⟨fun _ => Codec.inhabited_of_sample (n := 1) (by decide +kernel), ?_⟩
  refine List.forall_mem_cons.2 ⟨fun _ => Codec.inhabited_of_sample (n := 1) (by decide +kernel), ?_⟩
  refine List.forall_mem_cons.2 ⟨fun _ => Codec.inhabited_of_sample (n := 1) (by decide +kernel), ?_⟩
  refine List.forall_mem_cons.2 ⟨fun _ => Codec.inhabited_of_sample (n := 1) (by decide +kernel), ?_⟩
  refine List.forall_mem_cons.2 ⟨fun _ => Codec.inhabited_of_sample (n := 1) (by decide +kernel), ?_⟩
  refine List.forall_mem_cons.2 ⟨fun _ => Codec.inhabited_of_sample (n := 1) (by decide +kernel), ?_⟩
  refine List.forall_mem_cons.2 ⟨fun _ => Codec.inhabited_of_sample (n := 1) (by decide +kernel), ?_⟩
  refine List.forall_mem_cons.2 ⟨fun _ => Codec.inhabited_of_sample (n := 1) (by decide +kernel), ?_⟩
  refine List.forall_mem_cons.2 ⟨fun _ => Codec.inhabited_of_sample (n := 1) (by decide +kernel), ?_⟩
  exact fun _ h => nomatch h

theorem catalogRecords5_inhabited : ∀ c ∈ catalogRecords5, c.name ≠ "SilentAggregateSystem" → c.Inhabited := by
  unfold catalogRecords5
  refine List.forall_mem_cons.2 ⟨fun _ => Codec.inhabited_of_sample (n := 1) (by decide +kernel), ?_⟩
  refine List.forall_mem_cons.2 ⟨fun _ => Codec.inhabited_of_sample (n := 1) (by decide +kernel), ?_⟩
  refine List.forall_mem_cons.2 ⟨fun _ => Codec.inhabited_of_sample (n := 0) (by decide +kernel), ?_⟩
  refine List.forall_mem_cons.2 ⟨fun _ => Codec.inhabited_of_sample (n := 1) (by decide +kernel), ?_⟩
  refine List.forall_mem_cons.2 ⟨fun _ => Codec.inhabited_of_sample (n := 1) (by decide +kernel), ?_⟩
  refine List.forall_mem_cons.2 ⟨fun _ => Codec.inhabited_of_sample (n := 1) (by decide +kernel), ?_⟩
  refine List.forall_mem_cons.2 ⟨fun _ => Codec.inhabited_of_sample (n := 1) (by decide +kernel), ?_⟩
  refine List.forall_mem_cons.2 ⟨fun _ => Codec.inhabited_of_sample (n := 1) (by decide +kernel), ?_⟩
  refine List.forall_mem_cons.2 ⟨fun _ => Codec.inhabited_of_sample (n := 1) (by decide +kernel), ?_⟩
  refine List.forall_mem_cons.2 ⟨fun _ => Codec.inhabited_of_sample (n := 1) (by decide +kernel), ?_⟩
  refine List.forall_mem_cons.2 ⟨fun _ => Codec.inhabited_of_sample (n := 1) (by decide +kernel), ?_⟩
  refine List.forall_mem_cons.2 ⟨fun _ => Codec.inhabited_of_sample (n := 1) (by decide +kernel), ?_⟩
  exact fun _ h => nomatch h

theorem catalogPdus1_inhabited : ∀ c ∈ catalogPdus1, c.name ≠ "SilentAggregateSystem" → c.Inhabited := by
  unfold catalogPdus1
  refine List.forall_mem_cons.2 ⟨fun _ => Codec.inhabited_of_sample (n := 1) (by decide +kernel), ?_⟩
  refine List.forall_mem_cons.2 ⟨fun _ => Codec.inhabited_of_sample (n := 1) (by decide +kernel), ?_⟩
  refine List.forall_mem_cons.2 ⟨fun _ => Codec.inhabited_of_sample (n := 1) (by decide +kernel), ?_⟩
  refine List.forall_mem_cons.2 ⟨fun _ => Codec.inhabited_of_sample (n := 1) (by decide +kernel), ?_⟩
  refine List.forall_mem_cons.2 ⟨fun _ => Codec.inhabited_of_sample (n := 1) (by decide +kernel), ?_⟩
  refine List.forall_mem_cons.2 ⟨fun _ => Codec.inhabited_of_sample (n := 1) (by decide +kernel), ?_⟩
  exact fun _ h => nomatch h

theorem catalogPdus2_inhabited : ∀ c ∈ catalogPdus2, c.name ≠ "SilentAggregateSystem" → c.Inhabited := by
  unfold catalogPdus2
  refine List.forall_mem_cons.2 ⟨fun _ => Codec.inhabited_of_sample (n := 1) (by decide +kernel), ?_⟩
  refine List.forall_mem_cons.2 ⟨fun _ => Codec.inhabited_of_sample (n := 0) (by decide +kernel), ?_⟩
  refine List.forall_mem_cons.2 ⟨fun _ => Codec.inhabited_of_sample (n := 1) (by decide +kernel), ?_⟩
  refine List.forall_mem_cons.2 ⟨fun _ => Codec.inhabited_of_sample (n := 0) (by decide +kernel), ?_⟩
  refine List.forall_mem_cons.2 ⟨fun _ => Codec.inhabited_of_sample (n := 1) (by decide +kernel), ?_⟩
  refine List.forall_mem_cons.2 ⟨fun _ => Codec.inhabited_of_sample (n := 1) (by decide +kernel), ?_⟩
  refine List.forall_mem_cons.2 ⟨fun _ => Codec.inhabited_of_sample (n := 1) (by decide +kernel), ?_⟩
  refine List.forall_mem_cons.2 ⟨fun _ => Codec.inhabited_of_sample (n := 1) (by decide +kernel), ?_⟩
  exact fun _ h => nomatch h

theorem catalogPdus3_inhabited : ∀ c ∈ catalogPdus3, c.name ≠ "SilentAggregateSystem" → c.Inhabited := by
  unfold catalogPdus3
  refine List.forall_mem_cons.2 ⟨fun _ => Codec.inhabited_of_sample (n := 1) (by decide +kernel), ?_⟩
  refine List.forall_mem_cons.2 ⟨fun _ => Codec.inhabited_of_sample (n := 1) (by decide +kernel), ?_⟩
  refine List.forall_mem_cons.2 ⟨fun _ => Codec.inhabited_of_sample (n := 1) (by decide +kernel), ?_⟩
  refine List.forall_mem_cons.2 ⟨fun _ => Codec.inhabited_of_sample (n := 1) (by decide +kernel), ?_⟩
  refine List.forall_mem_cons.2 ⟨fun _ => Codec.inhabited_of_sample (n := 1) (by decide +kernel), ?_⟩
  refine List.forall_mem_cons.2 ⟨fun _ => Codec.inhabited_of_sample (n := 1) (by decide +kernel), ?_⟩
  refine List.forall_mem_cons.2 ⟨fun _ => Codec.inhabited_of_sample (n := 1) (by decide +kernel), ?_⟩
  refine List.forall_mem_cons.2 ⟨fun _ => Codec.inhabited_of_sample (n := 1) (by decide +kernel), ?_⟩
  refine List.forall_mem_cons.2 ⟨fun _ => Codec.inhabited_of_sample (n := 1) (by decide +kernel), ?_⟩
  refine List.forall_mem_cons.2 ⟨fun _ => Codec.inhabited_of_sample (n := 1) (by decide +kernel), ?_⟩
  exact fun _ h => nomatch h

theorem catalogPdus4_inhabited : ∀ c ∈ catalogPdus4, c.name ≠ "SilentAggregateSystem" → c.Inhabited := by
  unfold catalogPdus4
  refine List.forall_mem_cons.2 ⟨fun _ => Codec.inhabited_of_sample (n := 1) (by decide +kernel), ?_⟩
  refine List.forall_mem_cons.2 ⟨fun _ => Codec.inhabited_of_sample (n := 1) (by decide +kernel), ?_⟩
  refine List.forall_mem_cons.2 ⟨fun _ => Codec.inhabited_of_sample (n := 1) (by decide +kernel), ?_⟩
  refine List.forall_mem_cons.2 ⟨fun _ => Codec.inhabited_of_sample (n := 1) (by decide +kernel), ?_⟩
  refine List.forall_mem_cons.2 ⟨fun _ => Codec.inhabited_of_sample (n := 1) (by decide +kernel), ?_⟩
  refine List.forall_mem_cons.2 ⟨fun _ => Codec.inhabited_of_sample (n := 1) (by decide +kernel), ?_⟩
  refine List.forall_mem_cons.2 ⟨fun _ => Codec.inhabited_of_sample (n := 1) (by decide +kernel), ?_⟩
  refine List.forall_mem_cons.2 ⟨fun _ => Codec.inhabited_of_sample (n := 1) (by decide +kernel), ?_⟩
  refine List.forall_mem_cons.2 ⟨fun _ => Codec.inhabited_of_sample (n := 1) (by decide +kernel), ?_⟩
  refine List.forall_mem_cons.2 ⟨fun _ => Codec.inhabited_of_sample (n := 1) (by decide +kernel), ?_⟩
  refine List.forall_mem_cons.2 ⟨fun _ => Codec.inhabited_of_sample (n := 1) (by decide +kernel), ?_⟩
  refine List.forall_mem_cons.2 ⟨fun _ => Codec.inhabited_of_sample (n := 0) (by decide +kernel), ?_⟩
  refine List.forall_mem_cons.2 ⟨fun _ => Codec.inhabited_of_sample (n := 1) (by decide +kernel), ?_⟩
  exact fun _ h => nomatch h

theorem catalogPdus5_inhabited : ∀ c ∈ catalogPdus5, c.name ≠ "SilentAggregateSystem" → c.Inhabited := by
  unfold catalogPdus5
  refine List.forall_mem_cons.2 ⟨fun _ => Codec.inhabited_of_sample (n := 1) (by decide +kernel), ?_⟩
  refine List.forall_mem_cons.2 ⟨fun _ => Codec.inhabited_of_sample (n := 1) (by decide +kernel), ?_⟩
  refine List.forall_mem_cons.2 ⟨fun _ => Codec.inhabited_of_sample (n := 0) (by decide +kernel), ?_⟩
  refine List.forall_mem_cons.2 ⟨fun _ => Codec.inhabited_of_sample (n := 1) (by decide +kernel), ?_⟩
  refine List.forall_mem_cons.2 ⟨fun _ => Codec.inhabited_of_sample (n := 1) (by decide +kernel), ?_⟩
  refine List.forall_mem_cons.2 ⟨fun _ => Codec.inhabited_of_sample (n := 0) (by decide +kernel), ?_⟩
  refine List.forall_mem_cons.2 ⟨fun _ => Codec.inhabited_of_sample (n := 1) (by decide +kernel), ?_⟩
  refine List.forall_mem_cons.2 ⟨fun _ => Codec.inhabited_of_sample (n := 1) (by decide +kernel), ?_⟩
  refine List.forall_mem_cons.2 ⟨fun _ => Codec.inhabited_of_sample (n := 1) (by decide +kernel), ?_⟩
  refine List.forall_mem_cons.2 ⟨fun _ => Codec.inhabited_of_sample (n := 0) (by decide +kernel), ?_⟩
  refine List.forall_mem_cons.2 ⟨fun _ => Codec.inhabited_of_sample (n := 1) (by decide +kernel), ?_⟩
  refine List.forall_mem_cons.2 ⟨fun _ => Codec.inhabited_of_sample (n := 1) (by decide +kernel), ?_⟩
  refine List.forall_mem_cons.2 ⟨fun _ => Codec.inhabited_of_sample (n := 0) (by decide +kernel), ?_⟩
  exact fun _ h => nomatch h

theorem catalogRadio_inhabited : ∀ c ∈ catalogRadio, c.name ≠ "SilentAggregateSystem" → c.Inhabited := by
  unfold catalogRadio
  refine List.forall_mem_cons.2 ⟨fun _ => Codec.inhabited_of_sample (n := 1) (by decide +kernel), ?_⟩
  refine List.forall_mem_cons.2 ⟨fun _ => Codec.inhabited_of_sample (n := 1) (by decide +kernel), ?_⟩
  refine List.forall_mem_cons.2 ⟨fun _ => Codec.inhabited_of_sample (n := 1) (by decide +kernel), ?_⟩
  refine List.forall_mem_cons.2 ⟨fun _ => Codec.inhabited_of_sample (n := 1) (by decide +kernel), ?_⟩
  refine List.forall_mem_cons.2 ⟨fun _ => Codec.inhabited_of_sample (n := 1) (by decide +kernel), ?_⟩
  refine List.forall_mem_cons.2 ⟨fun _ => Codec.inhabited_of_sample (n := 1) (by decide +kernel), ?_⟩
  exact fun _ h => nomatch h

theorem catalogWarfare_inhabited : ∀ c ∈ catalogWarfare, c.name ≠ "SilentAggregateSystem" → c.Inhabited := by
  unfold catalogWarfare
  refine List.forall_mem_cons.2 ⟨fun _ => Codec.inhabited_of_sample (n := 1) (by decide +kernel), ?_⟩
  refine List.forall_mem_cons.2 ⟨fun _ => Codec.inhabited_of_sample (n := 1) (by decide +kernel), ?_⟩
  exact fun _ h => nomatch h

theorem catalogSpecial_inhabited : ∀ c ∈ catalogSpecial, c.name ≠ "SilentAggregateSystem" → c.Inhabited := by
  unfold catalogSpecial
  refine List.forall_mem_cons.2 ⟨fun _ => Codec.inhabited_of_sample (n := 0) (by decide +kernel), ?_⟩
  refine List.forall_mem_cons.2 ⟨fun _ => Codec.inhabited_of_sample (n := 0) (by decide +kernel), ?_⟩
  exact fun _ h => nomatch h

/-- Every class of the catalogue, except `SilentAggregateSystem`, whose `serialize` always raises,
has inputs that `parse` accepts and whose result `serialize` accepts. For the classes with lists the
input announces one element per list, unless the class cannot read elements at all. -/
theorem catalog_inhabited : ∀ c ∈ catalog, c.name ≠ "SilentAggregateSystem" → c.Inhabited := by
  intro c hc
  simp only [catalog, List.mem_append] at hc
  rcases hc with (((((((((((((h | h) | h) | h) | h) | h) | h) | h) | h) | h) | h) | h) | h) | h)
  · exact catalogCommon_inhabited c h
  · exact catalogRecords1_inhabited c h
  · exact catalogRecords2_inhabited c h
  · exact catalogRecords3_inhabited c h
  · exact catalogRecords4_inhabited c h
  · exact catalogRecords5_inhabited c h
  · exact catalogPdus1_inhabited c h
  · exact catalogPdus2_inhabited c h
  · exact catalogPdus3_inhabited c h
  · exact catalogPdus4_inhabited c h
  · exact catalogPdus5_inhabited c h
  · exact catalogRadio_inhabited c h
  · exact catalogWarfare_inhabited c h
  · exact catalogSpecial_inhabited c h

end Dis
