import Verif.Cpu50.Fetch

/-!
# Model 2050: end of an instruction

The last microinstruction of an operation asks storage for the next instruction and branches
to its fetch, or to the interruption routine.
-/

namespace Verif.Cpu50
open Verif.S360
attribute [local irreducible] ros

/-- An interruption is taken before the instruction at `a.ia`. -/
structure Pend (e : Env) (tk : Bool) (a : Arch) (s : S) : Prop where
  may : tk = true
  st : Asks e tk s ∨ Calm e tk s
  at' : (s.ROAR = 0x14b ∧ archOf s = a) ∨ (s.ROAR = 0x147 ∧ archOf s = a) ∨
    (s.ROAR = 0x103 ∧ (archOf s).jump s.R = a)

/-- Between two instructions: the fetch of the next one begins, or an interruption. -/
def Bd (e : Env) (tk : Bool) (a : Arch) (s : S) : Prop := Ready e tk a s ∨ Pend e tk a s

/-- The next instruction is in storage, with room for its fetch. -/
structure InStore (e : Env) (a : Arch) : Prop where
  ev : a.ia.toNat % 2 = 0
  rg : a.ia.toNat + 8 ≤ 4 * words e

/-- Before the last microinstruction: nothing but the fetch remains to be done. -/
structure AtEnd (e : Env) (tk : Bool) (a : Arch) (s : S) : Prop where
  calm : Calm e tk s
  arch : archOf s = a
  f : s.F.toNat < 16
  iva : s.IVA = false
  odd : a.ia.toNat % 4 = 2 → s.REFETCH = false → s.LS 30 = a.mem (a.ia.toNat / 4) ∧
    s.SYLS1 = (s.LS 30 &&& 0xc000#32 == 0#32)

theorem and2_eq (r : W) (h : r.toNat % 2 = 0) :
    (r &&& 2#32 == 0#32) = decide (r.toNat % 4 = 0) := by
  have h1 := and2_mod r
  have h2 : (r &&& 2#32 == 0#32) = !(r &&& 2#32 != 0#32) := by simp [bne]
  rw [h2, h1]
  by_cases h3 : r.toNat % 4 = 0
  · have : ¬ 2 ≤ r.toNat % 4 := by omega
    simp [h3]
  · have : 2 ≤ r.toNat % 4 := by omega
    simp [h3, this]

theorem ifAddr_rg {e : Env} {a : Arch} (ho : EnvOk e) (h : InStore e a) (b : Bool) :
    (ifAddr b a.ia).toNat ≤ e.memMax.toNat ∧ (ifAddr b a.ia).toNat / 4 =
      (if b then a.ia.toNat else a.ia.toNat + 2) / 4 := by
  have h1 := (ia_add h.rg (by have := ho.lim; omega)).1
  have h2 := ho.top
  have h3 := h.rg
  cases b with
  | false =>
    show (a.ia + 2#32).toNat ≤ _ ∧ (a.ia + 2#32).toNat / 4 = _
    rw [h1]; constructor
    · omega
    · rfl
  | true =>
    show a.ia.toNat ≤ _ ∧ a.ia.toNat / 4 = _
    constructor
    · omega
    · rfl

/-- After a last microinstruction `IA+0/2->A` with the buffered word in `L`; a store may still
be written back. -/
theorem end_c0 {e : Env} {tk : Bool} {a : Arch} {s s' : S} {ex : Bool} (ho : EnvOk e)
    (hi : InStore e a) (hex : tk = false → ex = false)
    (hq : tk = false → exc s' = false) (hms : s'.ms = .w1)
    (harch : archOf s' = a) (hIA : s.IA = a.ia)
    (odd : a.ia.toNat % 4 = 2 → s.REFETCH = false → s.LS 30 = a.mem (a.ia.toNat / 4) ∧
      s.SYLS1 = (s.LS 30 &&& 0xc000#32 == 0#32))
    (hL : s'.L = s.LS 30) (h1 : s'.initBump = false)
    (st : s'.updD = true → s'.bump = false ∧ memIx s'.SA < words e ∧ s'.mem (memIx s'.SA) = s'.SDR)
    (hf : s'.F.toNat < 16) (hs : s'.SYLS1 = s.SYLS1)
    (him : s'.initMem = (s.initMem || !decide (e.memMax < ifAddr s.REFETCH s.IA)))
    (hsar : s'.SAR = ifAddr s.REFETCH s.IA)
    (hroar : s'.ROAR = 328 ||| 2 * (ex || s.IA &&& 2#32 == 0#32).toNat +
      (ex || s.IA &&& 2#32 != 0#32 && s.REFETCH).toNat) : Bd e tk a s' := by
  obtain ⟨hr1, hr2⟩ := ifAddr_rg ho hi s.REFETCH
  have hle : ¬ e.memMax < ifAddr s.REFETCH s.IA := by rw [BitVec.lt_def, hIA]; omega
  rw [hIA] at hroar hsar
  have ask : Asks e tk s' := by
    refine ⟨by rw [him]; simp [hle], h1, hms, ?_, st, hq⟩
    rw [hsar]; exact hr1
  cases ex with
  | true =>
    refine .inr ⟨?_, .inl ask, .inl ⟨by rw [hroar]; simp, harch⟩⟩
    cases tk with
    | true => rfl
    | false => exact absurd (hex rfl) (by decide)
  | false =>
    have hev := and2_eq a.ia hi.ev
    by_cases h4 : a.ia.toNat % 4 = 0
    · left
      refine .even ask hf (.inl ?_) harch h4 ?_
      · rw [hroar]
        rw [decide_eq_true h4] at hev
        simp at hev
        simp [hev]
      · rw [hsar, hr2]
        split <;> omega
    · have h2 : a.ia.toNat % 4 = 2 := by have := hi.ev; omega
      rw [decide_eq_false h4] at hev
      have hne : ¬ a.ia &&& 2#32 = 0#32 := by simpa using hev
      have hb : (a.ia &&& 2#32 != 0#32) = true := by simpa using hne
      left
      rcases Bool.eq_false_or_eq_true s.REFETCH with hrf | hrf
      · refine .again ask hf (.inl ?_) harch h2 ?_
        · rw [hroar]; simp [hev, hb, hrf]
        · rw [hsar, hr2, if_pos hrf]
      · obtain ⟨h5, h6⟩ := odd h2 hrf
        refine .odd ask hf ?_ harch h2 ?_ ?_ ?_
        · rw [hroar]; simp [hev, hb, hrf]
        · rw [hL, h5]
        · rw [hL, hs]; exact h6
        · rw [hsar, hrf]; simp [ifAddr]

/-- After a last microinstruction `IA+0/2->A` with the buffered word in `L`. -/
theorem end_c {e : Env} {tk : Bool} {a a' : Arch} {s s' : S} {ex : Bool} (ho : EnvOk e)
    (h : AtEnd e tk a s) (hi : InStore e a) (hex : tk = false → ex = false)
    (hq : tk = false → exc s' = false) (hms : s'.ms = .w1)
    (harch : archOf s' = a') (hm : a'.mem = a.mem) (hia : a'.ia = a.ia)
    (hL : s'.L = s.LS 30)
    (h1 : s'.initBump = s.initBump) (h2 : s'.updD = s.updD)
    (hF : s'.F = s.F) (hs : s'.SYLS1 = s.SYLS1)
    (him : s'.initMem = (s.initMem || !decide (e.memMax < ifAddr s.REFETCH s.IA)))
    (hsar : s'.SAR = ifAddr s.REFETCH s.IA)
    (hroar : s'.ROAR = 328 ||| 2 * (ex || s.IA &&& 2#32 == 0#32).toNat +
      (ex || s.IA &&& 2#32 != 0#32 && s.REFETCH).toNat) : Bd e tk a' s' := by
  refine end_c0 ho ⟨by rw [hia]; exact hi.ev, by rw [hia]; exact hi.rg⟩ hex hq hms harch ?_ ?_ hL
    (by rw [h1]; exact h.calm.ib) ?_ (by rw [hF]; exact h.f) hs him hsar hroar
  · rw [hia, ← h.arch]; rfl
  · rw [hia, hm]; exact h.odd
  · intro h7
    rw [h2, h.calm.ud] at h7; cases h7

/-- The last microinstruction `IA+0/2->A` with the buffered word in `L`. -/
theorem end_a {e : Env} {tk : Bool} {a : Arch} {s : S} (ho : EnvOk e) (h : AtEnd e tk a s)
    (hi : InStore e a) {n : Nat} (hr : s.ROAR = n) (hn : Cpu50.ros n = Cpu50.ros 0x144) :
    Ev e tk (Bd e tk a) s := by
  refine Ev.wait ho h.calm hr (by rw [hn, w144]; decide) (by rw [hn, w144]; decide)
    (fun tu sa ex => by rw [hn]; exact x144 e _ _) fun tu sa ex hex hc => .now ?_
  exact end_c ho h hi hex hc.qt rfl h.arch rfl rfl rfl rfl rfl rfl rfl rfl rfl rfl

/-- After a microinstruction which suppresses the fetch when the next instruction is in the
buffer (`SMIF`). -/
structure Smif (e : Env) (tk : Bool) (a : Arch) (ex : Bool) (s : S) : Prop where
  ib : s.initBump = false
  ud : s.updD = false
  ms : s.ms = .w1
  qt : tk = false → exc s = false
  arch : archOf s = a
  f : s.F.toNat < 16
  iva : s.IVA = false
  odd : a.ia.toNat % 4 = 2 → s.REFETCH = false → s.LS 30 = a.mem (a.ia.toNat / 4) ∧
    s.SYLS1 = (s.LS 30 &&& 0xc000#32 == 0#32)
  roar : s.ROAR = 324 ||| 2 * (ex || s.IA &&& 2#32 == 0#32).toNat +
    (ex || s.IA &&& 2#32 != 0#32 && s.REFETCH).toNat
  im : s.initMem = (s.REFETCH || !s.IA &&& 2#32 != 0#32)
  sar : s.REFETCH = true ∨ s.IA &&& 2#32 = 0#32 → s.SAR = ifAddr s.REFETCH s.IA

theorem end_smif {e : Env} {tk : Bool} {a : Arch} {ex : Bool} {s : S} (ho : EnvOk e)
    (h : Smif e tk a ex s) (hi : InStore e a) (hex : tk = false → ex = false) :
    Ev e tk (Bd e tk a) s := by
  have hIA : s.IA = a.ia := by rw [← h.arch]; rfl
  obtain ⟨hr1, hr2⟩ := ifAddr_rg ho hi s.REFETCH
  have him := h.im
  have hsar := h.sar
  have hroar := h.roar
  rw [hIA] at him hsar hroar
  have ask : s.REFETCH = true ∨ a.ia &&& 2#32 = 0#32 → Asks e tk s := by
    intro h1
    refine ⟨?_, h.ib, h.ms, ?_, ?_, h.qt⟩
    · rw [him]
      rcases h1 with h1 | h1
      · simp [h1]
      · simp [h1]
    · rw [hsar h1]; exact hr1
    · intro h7
      rw [h.ud] at h7; cases h7
  cases ex with
  | true =>
    refine .now (.inr ⟨?_, ?_, .inr (.inl ⟨by rw [hroar]; simp, h.arch⟩)⟩)
    · cases tk with
      | true => rfl
      | false => exact absurd (hex rfl) (by decide)
    · by_cases h1 : s.REFETCH = true ∨ a.ia &&& 2#32 = 0#32
      · exact .inl (ask h1)
      · rw [not_or] at h1
        refine .inr ⟨?_, h.ib, h.ud, ?_, ?_, h.qt⟩
        · rw [him, Bool.eq_false_iff.2 h1.1]; simp [h1.2]
        · rw [h.ms]; decide
        · rw [h.ms]; simp
  | false =>
    have hev := and2_eq a.ia hi.ev
    by_cases h4 : a.ia.toNat % 4 = 0
    · rw [decide_eq_true h4] at hev
      have heq : a.ia &&& 2#32 = 0#32 := by simpa using hev
      refine .now (.inl (.even (ask (.inr heq)) h.f (.inr ?_) h.arch h4 ?_))
      · rw [hroar]; simp [heq]
      · rw [hsar (.inr heq), hr2]
        split <;> omega
    · have h2 : a.ia.toNat % 4 = 2 := by have := hi.ev; omega
      rw [decide_eq_false h4] at hev
      have hne : ¬ a.ia &&& 2#32 = 0#32 := by simpa using hev
      have hb : (a.ia &&& 2#32 != 0#32) = true := by simpa using hne
      rcases Bool.eq_false_or_eq_true s.REFETCH with hrf | hrf
      · refine .now (.inl (.again (ask (.inl hrf)) h.f (.inr ?_) h.arch h2 ?_))
        · rw [hroar]; simp [hev, hb, hrf]
        · rw [hsar (.inl hrf), hr2, if_pos hrf]
      · refine end_a ho (n := 0x144)
          ⟨⟨?_, h.ib, h.ud, ?_, ?_, h.qt⟩, h.arch, h.f, h.iva, h.odd⟩ hi ?_ rfl
        · rw [him, hrf]; simp [hne]
        · rw [h.ms]; decide
        · rw [h.ms]; simp
        · rw [hroar]; simp [hev, hb, hrf]

end Verif.Cpu50
