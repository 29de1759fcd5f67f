import Verif.Proof.Special
import Verif.Proof.Factory

/-! # What `parseStandardVariableRecord` makes of what the records write -/

namespace Dis

/-- Successful runs consume `n` bytes and return something with `P`. -/
def TakesThen {α} (r : R α) (n : Nat) (P : α → Prop) : Prop :=
  ∀ d p a s, p ≤ d.length → r ⟨d, p⟩ = (.ok a, s) → s = ⟨d, p + n⟩ ∧ p + n ≤ d.length ∧ P a

theorem TakesThen.bind {α β} {r : R α} {k : α → R β} {n m P Q} (h1 : TakesThen r n P)
    (h2 : ∀ a, P a → TakesThen (k a) m Q) : TakesThen (r >>= k) (n + m) Q := by
  intro d p c s hp h
  obtain ⟨a, s1, hr, hk⟩ := R.bind_inv h
  obtain ⟨rfl, hp1, ha⟩ := h1 d p a s1 hp hr
  have := h2 a ha d (p + n) c s hp1 hk
  rwa [Nat.add_assoc] at this

theorem TakesThen.pure {α} {a : α} {P : α → Prop} (h : P a) : TakesThen (pure a) 0 P := by
  intro d p c s hp hr
  cases hr
  exact ⟨rfl, hp, h⟩

theorem TakesThen.last {α β} {r : R α} {f : α → β} {n P Q} (h1 : TakesThen r n P) (h2 : ∀ a, P a → Q (f a)) :
    TakesThen (r >>= fun a => Pure.pure (f a)) n Q :=
  TakesThen.bind h1 fun a ha => TakesThen.pure (h2 a ha)

theorem TakesThen.of_fix {α} {r : R α} {n} (h : Fix r n) : TakesThen r n fun _ => True := by
  intro d p a s hp hr
  by_cases hl : p + n ≤ d.length
  · obtain ⟨a', ha⟩ := (h d p hp).2 hl
    rw [ha] at hr
    cases hr
    exact ⟨rfl, hl, trivial⟩
  · obtain ⟨s', hs⟩ := (h d p hp).1 (by omega)
    rw [hs] at hr
    cases hr

theorem TakesThen.times {α} {r : R α} {n P} (h : TakesThen r n P) (k : Nat) :
    TakesThen (R.times k r) (k * n) fun l => l.length = k := by
  induction k with
  | zero => rw [Nat.zero_mul]; exact TakesThen.pure rfl
  | succ k ih =>
    rw [Nat.succ_mul, Nat.add_comm (k * n)]
    refine TakesThen.bind h fun _ _ => TakesThen.last ih fun l hl => ?_
    rw [List.length_cons, hl]

theorem unpackF_total (b : Bytes) (h : b.length = 4) : ∃ v, unpackF b = .ok v :=
  ⟨_, by unfold unpackF; rw [if_pos h]⟩

theorem unpackD_total (b : Bytes) (h : b.length = 8) : ∃ v, unpackD b = .ok v :=
  ⟨_, by unfold unpackD; rw [if_pos h]⟩

theorem fix_float32 : Fix read_float32 4 :=
  fix_readFixed (by decide) (fun _ _ => unpackF_len) (fun _ _ => unpackF_err) unpackF_total

theorem fix_float64 : Fix read_float64 8 :=
  fix_readFixed (by decide) (fun _ _ => unpackD_len) (fun _ _ => unpackD_err) unpackD_total

theorem takesThen_u8 : TakesThen read_uint8 1 fun _ => True := TakesThen.of_fix fix_unsigned_byte
theorem takesThen_u16 : TakesThen read_uint16 2 fun _ => True := TakesThen.of_fix fix_unsigned_short
theorem takesThen_u32 : TakesThen read_uint32 4 fun _ => True := TakesThen.of_fix fix_unsigned_int
theorem takesThen_f32 : TakesThen read_float32 4 fun _ => True := TakesThen.of_fix fix_float32
theorem takesThen_f64 : TakesThen read_float64 8 fun _ => True := TakesThen.of_fix fix_float64

theorem takesThen_vector (s : Vector3Float) : TakesThen (Vector3Float.parse s) 12 fun _ => True := by
  unfold Vector3Float.parse
  exact TakesThen.bind takesThen_f32 fun _ _ => TakesThen.bind takesThen_f32 fun _ _ => TakesThen.last takesThen_f32 fun _ _ => trivial

theorem takesThen_world (s : WorldCoordinates) : TakesThen (WorldCoordinates.parse s) 24 fun _ => True := by
  unfold WorldCoordinates.parse
  exact TakesThen.bind takesThen_f64 fun _ _ => TakesThen.bind takesThen_f64 fun _ _ => TakesThen.last takesThen_f64 fun _ _ => trivial

theorem takesThen_bits (ws : List Nat) : TakesThen (Bitfield.parse ws) (ws.sum / 8) fun _ => True := by
  intro d p a s hp hr
  have e : d = d.take p ++ d.drop p := (List.take_append_drop p d).symm
  have hl : (d.take p).length = p := by simp; omega
  obtain ⟨b, rest, h1, h2, h3, -⟩ := Bitfield.parse_inv (pre := d.take p) (suf := d.drop p) (a := a) (s' := s)
    (by rw [← e, hl]; exact hr)
  rw [← e, hl, h3] at h2
  refine ⟨h2, ?_, trivial⟩
  have := congrArg List.length h1
  simp at this
  omega

theorem takesThen_netId (s : NetId) : TakesThen (NetId.parse s) 2 fun _ => True := by
  unfold NetId.parse
  exact TakesThen.last (takesThen_bits _) fun _ _ => trivial

theorem takesThen_deposition (s : DirectedEnergyTargetEnergyDeposition) :
    TakesThen (DirectedEnergyTargetEnergyDeposition.parse s) 12 fun _ => True := by
  unfold DirectedEnergyTargetEnergyDeposition.parse
  exact TakesThen.bind (TakesThen.of_fix (fix_entityID _)) fun _ _ => TakesThen.bind takesThen_u16 fun _ _ =>
    TakesThen.last takesThen_f32 fun _ _ => trivial

/-! ## The header the records write -/

theorem sv_header {t m : Int} {w2 : W Unit} {b : Bytes}
    (hb : (StandardVariableRecord.serialize t m >>= fun _ => w2).Emits b) (hm : 0 ≤ m ∧ m < 65536) :
    ∃ b1 lo b3, b = b1 ++ (lo ++ b3) ∧ b1.length = 6 ∧ lo.length = 2 ∧ Reads read_uint16 lo m ∧
      w2.Emits b3 ∧ ∀ e pre post, parseStandardVariableRecord e ⟨pre ++ b ++ post, pre.length⟩ =
        (R.ofExcept (getStandardVariableClass t e) >>= fun c => SVClass.parse c 0)
          ⟨(pre ++ b1) ++ (lo ++ (b3 ++ post)), (pre ++ b1).length⟩ := by
  obtain ⟨h, b3, rfl, h1, h3⟩ := W.emits_bind.1 hb
  obtain ⟨bt, bm, rfl, ht, hm1⟩ := W.emits_bind.1 h1
  have rt := rt_uint32 t _ ht
  have ht4 := sized_uint32 t _ ht
  obtain ⟨n, rfl⟩ : ∃ n : Nat, m = n := ⟨m.toNat, by omega⟩
  have ebm : bm = beBytes 2 0 ++ beBytes 2 n := by
    have : packU 4 (n : Int) = .ok (beBytes 4 n) := by
      unfold packU
      rw [if_pos (by omega), Int.toNat_natCast]
    have h2 := hm1.1
    unfold write_uint32 write_unsigned_int W.writeFixed at h2
    rw [this] at h2
    have : bm = beBytes 4 n := h2.symm
    rw [this]
    have a1 : n / 256 ^ 3 % 256 = 0 := by omega
    have a2 : n / 256 ^ 2 % 256 = 0 := by omega
    simp [beBytes]
    rw [show n / 16777216 = 0 by omega, show n / 65536 = 0 by omega]
    decide
  subst ebm
  refine ⟨bt ++ beBytes 2 0, beBytes 2 n, b3, by simp, by simp [ht4], by simp, ?_, h3, ?_⟩
  · refine reads_readFixed (length_beBytes _ _) ?_
    unfold unpackU
    rw [if_pos (length_beBytes _ _), beNat_beBytes, Nat.mod_eq_of_lt (by omega)]
  · intro e pre post
    have r0 : Reads read_uint16 (beBytes 2 0) 0 := by
      refine reads_readFixed (length_beBytes _ _) ?_
      unfold unpackU
      rw [if_pos (length_beBytes _ _), beNat_beBytes]; rfl
    unfold parseStandardVariableRecord
    have e1 := rt pre (beBytes 2 0 ++ beBytes 2 n ++ b3 ++ post)
    have e2 := r0 (pre ++ bt) (beBytes 2 n ++ b3 ++ post)
    simp only [List.append_assoc] at e1 e2 ⊢
    rw [R.bind_ok e1]
    simp only [List.length_append, Nat.add_assoc] at e2 ⊢
    rw [R.bind_ok e2]

/-- Reading a known 16-bit number, then the rest. -/
theorem takesThen_read16 {β} {k : Int → R β} {pre lo post : Bytes} {m : Int} {a s n Q}
    (h : (read_uint16 >>= k) ⟨pre ++ (lo ++ post), pre.length⟩ = (.ok a, s)) (hl : Reads read_uint16 lo m)
    (h2 : lo.length = 2) (hk : TakesThen (k m) n Q) :
    s = ⟨pre ++ (lo ++ post), pre.length + (2 + n)⟩ ∧ Q a := by
  have e := hl pre post
  rw [List.append_assoc] at e
  rw [R.bind_ok e] at h
  obtain ⟨h1, -, h3⟩ := hk _ _ _ _ (by simp [List.length_append]) h
  rw [h1, h2, Nat.add_assoc]
  exact ⟨rfl, h3⟩

theorem ofExcept_ok {α β} {x : Except PyErr α} {k : α → R β} {st a s}
    (h : (R.ofExcept x >>= k) st = (.ok a, s)) : ∃ c, x = .ok c ∧ k c st = (.ok a, s) := by
  obtain ⟨c, s1, h1, h2⟩ := R.bind_inv h
  unfold R.ofExcept at h1
  injection h1 with e1 e2
  subst e2
  exact ⟨c, e1, h2⟩

theorem getClass_ok {t : Int} {e c} (h : getStandardVariableClass t e = .ok c) :
    c = variableRecordClass t := by
  unfold getStandardVariableClass at h
  split at h
  · cases h
  · dsimp only at h
    split at h
    · cases h
    · injection h with h; exact h.symm

/-- The checks at the start of the records' `parse`. -/
theorem checked {β} {r : R β} {bl : Int} {st a s}
    (h : (StandardVariableRecord.parse bl >>= fun _ => r) st = (.ok a, s)) : r st = (.ok a, s) := by
  obtain ⟨u, s1, h1, h2⟩ := R.bind_inv h
  cases StandardVariableRecord.parse_silent _ _ _ _ h1
  exact h2

theorem highFidelity_reread {pre lo post : Bytes} {m : Int} (hl : Reads read_uint16 lo m)
    (h2 : lo.length = 2) {a s}
    (h : SVClass.parse .highFidelityHAVEQUICKRadio 0 ⟨pre ++ (lo ++ post), pre.length⟩ = (.ok a, s)) :
    s = ⟨pre ++ (lo ++ post), pre.length + 34⟩ ∧
      ∃ r, a = .highFidelityHAVEQUICKRadio r ∧ r.padding1 = m := by
  obtain ⟨r, s1, h1, h3⟩ := R.bind_inv h
  cases h3
  unfold HighFidelityHAVEQUICKRadio.parse at h1
  have := takesThen_read16 (Q := fun r : HighFidelityHAVEQUICKRadio => r.padding1 = m) (checked h1) hl h2
    (TakesThen.bind (takesThen_netId _) fun _ _ => TakesThen.bind takesThen_u8 fun _ _ => TakesThen.bind takesThen_u8 fun _ _ =>
      TakesThen.bind takesThen_u32 fun _ _ => TakesThen.bind takesThen_u32 fun _ _ => TakesThen.bind takesThen_u32 fun _ _ =>
      TakesThen.bind takesThen_u32 fun _ _ => TakesThen.bind takesThen_u32 fun _ _ => TakesThen.bind takesThen_u32 fun _ _ =>
      TakesThen.last takesThen_u32 fun _ _ => rfl)
  exact ⟨this.1, r, rfl, this.2⟩

theorem damage_reread {pre lo post : Bytes} {m : Int} (hl : Reads read_uint16 lo m)
    (h2 : lo.length = 2) {a s}
    (h : SVClass.parse .directedEnergyDamage 0 ⟨pre ++ (lo ++ post), pre.length⟩ = (.ok a, s)) :
    s = ⟨pre ++ (lo ++ post), pre.length + 34⟩ ∧
      ∃ r, a = .directedEnergyDamage r ∧ r.padding = m := by
  obtain ⟨r, s1, h1, h3⟩ := R.bind_inv h
  cases h3
  unfold DirectedEnergyDamage.parse at h1
  have := takesThen_read16 (Q := fun r : DirectedEnergyDamage => r.padding = m) (checked h1) hl h2
    (TakesThen.bind (takesThen_vector _) fun _ _ => TakesThen.bind takesThen_f32 fun _ _ => TakesThen.bind takesThen_f32 fun _ _ =>
      TakesThen.bind takesThen_u8 fun _ _ => TakesThen.bind takesThen_u8 fun _ _ => TakesThen.bind takesThen_u8 fun _ _ =>
      TakesThen.bind takesThen_u8 fun _ _ => TakesThen.bind (TakesThen.of_fix (fix_eventID _)) fun _ _ =>
      TakesThen.last takesThen_u16 fun _ _ => rfl)
  exact ⟨this.1, r, rfl, this.2⟩

theorem precision_reread {pre lo post : Bytes} {m : Int} (hl : Reads read_uint16 lo m)
    (h2 : lo.length = 2) {a s}
    (h : SVClass.parse .directedEnergyPrecisionAimpoint 0 ⟨pre ++ (lo ++ post), pre.length⟩ = (.ok a, s)) :
    s = ⟨pre ++ (lo ++ post), pre.length + 90⟩ ∧
      ∃ r, a = .directedEnergyPrecisionAimpoint r ∧ r.padding = m := by
  obtain ⟨r, s1, h1, h3⟩ := R.bind_inv h
  cases h3
  unfold DirectedEnergyPrecisionAimpoint.parse at h1
  have := takesThen_read16 (Q := fun r : DirectedEnergyPrecisionAimpoint => r.padding = m) (checked h1) hl h2
    (TakesThen.bind (takesThen_world _) fun _ _ => TakesThen.bind (takesThen_vector _) fun _ _ =>
      TakesThen.bind (takesThen_vector _) fun _ _ => TakesThen.bind (takesThen_vector _) fun _ _ =>
      TakesThen.bind (TakesThen.of_fix (fix_entityID _)) fun _ _ =>
      TakesThen.bind takesThen_u8 fun _ _ => TakesThen.bind takesThen_u8 fun _ _ => TakesThen.bind takesThen_f32 fun _ _ =>
      TakesThen.bind takesThen_f32 fun _ _ => TakesThen.bind takesThen_f32 fun _ _ => TakesThen.bind takesThen_f32 fun _ _ =>
      TakesThen.last takesThen_u32 fun _ _ => rfl)
  exact ⟨this.1, r, rfl, this.2⟩

/-- The area record: the type number of the second header is taken for the counts. -/
theorem area_reread {pre lo c1 c2 post : Bytes} {m : Int} (hl : Reads read_uint16 lo m)
    (h2 : lo.length = 2) (hc1 : Reads read_uint16 c1 0) (l1 : c1.length = 2)
    (hc2 : Reads read_uint16 c2 4001) (l2 : c2.length = 2) {a s}
    (h : SVClass.parse .directedEnergyAreaAimpoint 0
      ⟨pre ++ (lo ++ (c1 ++ (c2 ++ post))), pre.length⟩ = (.ok a, s)) :
    s.pos = pre.length + 48018 ∧
      ∃ r, a = .directedEnergyAreaAimpoint r ∧ r.padding = m ∧ r.beamAntennaPatterns = [] ∧
        r.directedEnergyTargetEnergyDepositions.length = 4001 := by
  obtain ⟨r, s1, h1, h3⟩ := R.bind_inv h
  cases h3
  unfold DirectedEnergyAreaAimpoint.parse at h1
  have h1 := checked h1
  have e := hl pre (c1 ++ (c2 ++ post))
  rw [List.append_assoc] at e
  rw [R.bind_ok e] at h1
  have e := hc1 (pre ++ lo) (c2 ++ post)
  simp only [List.append_assoc, List.length_append] at e
  rw [R.bind_ok e] at h1
  have e := hc2 (pre ++ (lo ++ c1)) post
  simp only [List.append_assoc, List.length_append, ← Nat.add_assoc] at e
  rw [R.bind_ok e] at h1
  have t : TakesThen (R.times (0 : Int).toNat (BeamAntennaPattern.parse BeamAntennaPattern.init)) 0
      fun l => l = [] := TakesThen.pure rfl
  have := TakesThen.bind t (Q := fun r : DirectedEnergyAreaAimpoint => r.padding = m ∧
      r.beamAntennaPatterns = [] ∧ r.directedEnergyTargetEnergyDepositions.length = 4001)
    (k := fun bs => R.times (4001 : Int).toNat (DirectedEnergyTargetEnergyDeposition.parse
      DirectedEnergyTargetEnergyDeposition.init) >>= fun ds => pure
        ({ padding := m, beamAntennaPatterns := DirectedEnergyAreaAimpoint.init.beamAntennaPatterns ++ bs,
           directedEnergyTargetEnergyDepositions :=
             DirectedEnergyAreaAimpoint.init.directedEnergyTargetEnergyDepositions ++ ds } :
             DirectedEnergyAreaAimpoint))
    (fun bs hbs => TakesThen.last (TakesThen.times (takesThen_deposition _) 4001) fun l hl' => by
      subst hbs; exact ⟨rfl, rfl, hl'⟩)
  obtain ⟨g1, -, g2⟩ := this _ _ _ _ (by simp [List.length_append]; omega) h1
  refine ⟨?_, r, rfl, g2⟩
  rw [g1]
  show _ = _
  simp only
  omega

end Dis
